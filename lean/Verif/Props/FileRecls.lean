import Verif.Props.FileResult
import Verif.Props.Recls
/-!
# Reclassified subsets as files (C75, C78)
-/
namespace CCGL
namespace Disk
open Fs Raster CCGL.Spec Disk.Spec

/-- The combined output, given the value of each cell and layer. -/
theorem comb_cells {env : Env} {fmt : Fmt} {d : Disk} {rs : RasterS} {oo : Bool} {recls : IMap (List ℚ)} {dv : ℚ} {F : List ℚ} {L : Int}
    {gv : Int → Int → Int → ℚ}
    (hvalid : rs.ras.validData = true) (hne : rs.subs ≠ [])
    (hpc : prepareComb rs oo true recls dv = .ok (some (some F, rs.ras.hdr.rows * rs.ras.hdr.cols * L, L)))
    (hL : 1 ≤ L) (hlen : (F.length : Int) = rs.ras.hdr.rows * rs.ras.hdr.cols * L)
    (hcell : ∀ row col l, 0 ≤ row → row < rs.ras.hdr.rows → 0 ≤ col → col < rs.ras.hdr.cols → 0 ≤ l → l < L →
      readAt (some F) ((row * rs.ras.hdr.cols + col) * L + l) = .ok (gv row col l))
    {p : Path} {dt core suf : Str} (hn : NameIn d.fs p dt core suf) (hsuf : IsAscSuffix suf ∨ IsTifSuffix suf)
    (hty : IsTifSuffix suf → SameType fmt) (hnd : d.fs.kindOf (p ++ [core ++ '.' :: suf]) ≠ some .dir)
    (hnd0 : d.fs.kindOf (p ++ [subsetCore 0 core ++ '.' :: suf]) ≠ some .dir)
    (hw : ∀ l : Nat, (l : Int) < L → Writable env d.fs (p ++ [layerCore (subsetCore 0 core) L l ++ '.' :: suf]))
    (hh : CarriesHeader suf rs.ras.hdr)
    (hv : ∀ row col l, 0 ≤ row → row < rs.ras.hdr.rows → 0 ≤ col → col < rs.ras.hdr.cols → 0 ≤ l → l < L →
      CarriesValue fmt suf (gv row col l)) (hnv : CarriesValue fmt suf rs.ras.hdr.noData) :
    ∃ d', outputSubsetToFile env fmt d rs oo true (dt ++ core ++ '.' :: suf) recls dv = .ok (true, d') ∧
      Rewritten d d' (fun q => ∃ l : Nat, (l : Int) < L ∧ q = p ++ [layerCore (subsetCore 0 core) L l ++ '.' :: suf]) ∧
      ∀ l : Nat, (l : Int) < L → ReadsAs d' (dt ++ layerCore (subsetCore 0 core) L l ++ '.' :: suf) rs.ras.hdr (fun row col => gv row col l) := by
  have hmem : ∀ v ∈ F, CarriesValue fmt suf v := by
    intro v hvF
    obtain ⟨row, col, l, a1, a2, a3, a4, a5, a6, a7⟩ := mem_cells hh.1 hh.2.1 hL hlen hvF
    rw [hcell row col l a1 a2 a3 a4 a5 a6] at a7
    injection a7 with a7
    rw [← a7]; exact hv row col l a1 a2 a3 a4 a5 a6
  obtain ⟨d', o1, o2, o3⟩ := comb_files (env := env) (fmt := fmt) hvalid hne hpc hL hlen rfl hn hsuf hty hnd hnd0 hw hh hmem hnv
  refine ⟨d', o1, o2, fun l hl => readsAs_congr (o3 l hl) rfl rfl rfl rfl rfl rfl ?_⟩
  intro row col a1 a2 a3 a4
  have hidx := idx_range a1 a2 a3 a4
  have hg := layerOf_get hL hlen hl hidx.1 hidx.2
  rw [hcell row col l a1 a2 a3 a4 (by omega) hl] at hg
  injection hg

/-- The output of the single subsets, given the value of each cell and layer of each of them. -/
theorem sub_cells {env : Env} {fmt : Fmt} {d : Disk} {rs : RasterS} {oo : Bool} {recls : IMap (List ℚ)} {dv : ℚ} {L : Int}
    {gv : Int → Int → Int → Int → ℚ} (hvalid : rs.ras.validData = true) (hne : rs.subs ≠ []) (hsorted : (rs.subs.map (·.1)).Pairwise (· < ·))
    (hL : 1 ≤ L)
    (hsub : ∀ k s, rs.subs.get k = some s → s.usable = true ∧ ∃ F : List ℚ,
      prepareSubsetData rs.ras k s oo true recls dv = .ok (some (some F, (s.erow - s.srow + 1) * (s.ecol - s.scol + 1) * L, L)) ∧
      (F.length : Int) = (s.erow - s.srow + 1) * (s.ecol - s.scol + 1) * L ∧
      ∀ row col l, s.srow ≤ row → row ≤ s.erow → s.scol ≤ col → col ≤ s.ecol → 0 ≤ l → l < L →
        readAt (some F) (((row - s.srow) * (s.ecol - s.scol + 1) + (col - s.scol)) * L + l) = .ok (gv k row col l))
    {p : Path} {dt core suf : Str} (hn : NameIn d.fs p dt core suf) (hsuf : IsAscSuffix suf ∨ IsTifSuffix suf)
    (hty : IsTifSuffix suf → SameType fmt) (hnd : d.fs.kindOf (p ++ [core ++ '.' :: suf]) ≠ some .dir)
    (hdir : ∀ k s, rs.subs.get k = some s → d.fs.kindOf (p ++ [subsetCore k core ++ '.' :: suf]) ≠ some .dir)
    (hw : ∀ k s (l : Nat), rs.subs.get k = some s → (l : Int) < L →
      Writable env d.fs (p ++ [layerCore (subsetCore k core) L l ++ '.' :: suf]))
    (hh : ∀ k s, rs.subs.get k = some s →
      CarriesHeader suf (s.getHeader rs.ras.hdr.xll rs.ras.hdr.yll rs.ras.hdr.rows rs.ras.hdr.cellsize rs.ras.noData))
    (hv : ∀ k s, rs.subs.get k = some s → ∀ row col l, s.srow ≤ row → row ≤ s.erow → s.scol ≤ col → col ≤ s.ecol → 0 ≤ l → l < L →
      CarriesValue fmt suf (gv k row col l)) (hnv : CarriesValue fmt suf rs.ras.noData) :
    ∃ d', outputSubsetToFile env fmt d rs oo false (dt ++ core ++ '.' :: suf) recls dv = .ok (true, d') ∧
      Rewritten d d' (fun q => ∃ k s, ∃ l : Nat, rs.subs.get k = some s ∧ (l : Int) < L ∧
        q = p ++ [layerCore (subsetCore k core) L l ++ '.' :: suf]) ∧
      ∀ k s (l : Nat), rs.subs.get k = some s → (l : Int) < L → ∃ h,
        ReadsAs d' (dt ++ layerCore (subsetCore k core) L l ++ '.' :: suf) h (fun i j => gv k (s.srow + i) (s.scol + j) l) ∧
        h.rows = s.erow - s.srow + 1 ∧ h.cols = s.ecol - s.scol + 1 ∧ h.cellsize = rs.ras.hdr.cellsize ∧ h.noData = rs.ras.noData ∧
        (∀ lr lc, h.grid.center lr lc = rs.ras.hdr.grid.center (s.srow + lr) (s.scol + lc)) := by
  have hget : ∀ x ∈ rs.subs, rs.subs.get x.1 = some x.2 := fun x hx => (IMap.mem_iff_get _ hsorted _ _).1 hx
  have hnodup : (rs.subs.map (·.1)).Nodup := hsorted.imp (fun h => ne_of_lt h)
  have pay : ∀ k, ∃ (H : Header) (F : List ℚ) (N : Int) (cs : Nat → Content), ∀ s, rs.subs.get k = some s →
      subPayload rs.ras k s oo recls dv = .ok (some (H, some F, N, L)) ∧ 0 < N ∧ (F.length : Int) = N * L ∧
      H.rows = s.erow - s.srow + 1 ∧ H.cols = s.ecol - s.scol + 1 ∧ H.cellsize = rs.ras.hdr.cellsize ∧ H.noData = rs.ras.noData ∧
      (∀ lr lc, H.grid.center lr lc = rs.ras.hdr.grid.center (s.srow + lr) (s.scol + lc)) ∧
      (∀ l : Nat, (l : Int) < L → content fmt suf H (some (layerOf F N L l)) = .ok (some (cs l)) ∧
        (∀ d2 : Disk, NameIn d2.fs p dt core suf → d2.fs.kindOf (p ++ [layerCore (subsetCore k core) L l ++ '.' :: suf]) = some .file →
          d2.data (p ++ [layerCore (subsetCore k core) L l ++ '.' :: suf]) = some (cs l) →
          ReadsAs d2 (dt ++ layerCore (subsetCore k core) L l ++ '.' :: suf) H (fun i j => gv k (s.srow + i) (s.scol + j) l))) := by
    intro k
    cases hk : rs.subs.get k with
    | none => exact ⟨rs.ras.hdr, [], 0, fun _ => .asc [], fun s hs => by cases hs⟩
    | some s =>
      obtain ⟨hu, F, q1, q2, q3⟩ := hsub k s hk
      generalize hN : (s.erow - s.srow + 1) * (s.ecol - s.scol + 1) = N at q1 q2
      obtain ⟨c1, c2, c3⟩ := hh k s hk
      have c1' : 0 < s.erow - s.srow + 1 := c1
      have c2' : 0 < s.ecol - s.scol + 1 := c2
      have hNp : 0 < N := by rw [← hN]; exact mul_pos c1' c2'
      let H : Header := { s.getHeader rs.ras.hdr.xll rs.ras.hdr.yll rs.ras.hdr.rows rs.ras.hdr.cellsize rs.ras.noData with layers := L, cellsnum := N }
      have hpl : subPayload rs.ras k s oo recls dv = .ok (some (H, some F, N, L)) := by
        unfold subPayload
        rw [hu, q1]
        simp only [Bool.not_true, Bool.false_eq_true, if_false, Out.ok_bind]
        rw [if_neg (by omega), Int.mul_tdiv_cancel _ (by omega), Out.pure_eq]
      have hmem : ∀ v ∈ F, CarriesValue fmt suf v := by
        intro v hvF
        obtain ⟨row, col, l, a1, a2, a3, a4, a5, a6, a7⟩ := mem_cells c1' c2' hL (by rw [q2, hN]) hvF
        have t := q3 (row + s.srow) (col + s.scol) l (by omega) (by omega) (by omega) (by omega) a5 a6
        rw [show row + s.srow - s.srow = row by ring, show col + s.scol - s.scol = col by ring, a7] at t
        injection t with t
        rw [t]
        exact hv k s hk _ _ _ (by omega) (by omega) (by omega) (by omega) a5 a6
      have hlay : ∀ l : Nat, ((layerOf F N L l).length : Int) = H.rows * H.cols := by
        intro l
        unfold layerOf
        rw [List.length_map, List.length_range, Int.toNat_of_nonneg hNp.le]
        exact hN.symm
      have hcont : ∀ l : Nat, ∃ c, (l : Int) < L → content fmt suf H (some (layerOf F N L l)) = .ok (some c) := by
        intro l
        by_cases hl : (l : Int) < L
        · obtain ⟨c, hc, -⟩ := reads_content (fmt := fmt) hn hsuf (hlay l) ⟨c1, c2, c3⟩
            (fun v hv => hmem v (layerOf_mem hL q2 hl hv)) hnv hty
          exact ⟨c, fun _ => hc⟩
        · exact ⟨.asc [], fun h => absurd h hl⟩
      choose cs hcs using hcont
      refine ⟨H, F, N, cs, ?_⟩
      intro s2 hs2
      injection hs2 with hs2
      subst hs2
      refine ⟨hpl, hNp, q2, rfl, rfl, rfl, rfl, fun lr lc => (C14_header s rs.ras.hdr rs.ras.noData lr lc).1, ?_⟩
      intro l hl
      refine ⟨hcs l hl, ?_⟩
      intro d2 hn2 hk2 hd2
      obtain ⟨c, hc, hread⟩ := reads_content (fmt := fmt) (nameIn_core hn2 (layerCore_slash (subsetCore_slash hn.core k) L l)) hsuf (hlay l)
        ⟨c1, c2, c3⟩ (fun v hv => hmem v (layerOf_mem hL q2 hl hv)) hnv hty
      rw [hcs l hl] at hc
      simp only [Out.ok.injEq, Option.some.injEq] at hc
      subst hc
      refine readsAs_congr (hread hk2 hd2) rfl rfl rfl rfl rfl rfl ?_
      intro i j a1 a2 a3 a4
      have a2 : i < s.erow - s.srow + 1 := a2
      have a4 : j < s.ecol - s.scol + 1 := a4
      have hidx := idx_range a1 a2 a3 a4
      rw [hN] at hidx
      have hg := layerOf_get hL q2 hl hidx.1 hidx.2
      have t := q3 (s.srow + i) (s.scol + j) l (by omega) (by omega) (by omega) (by omega) (by omega) hl
      rw [show s.srow + i - s.srow = i by ring, show s.scol + j - s.scol = j by ring, hg] at t
      injection t with t
      exact t.symm
  choose H F N cs hP using pay
  obtain ⟨d', o1, o2⟩ := sub_loop (env := env) (fmt := fmt) (r := rs.ras) (oo := oo) (recls := recls) (dv := dv) hsuf hL H F N cs rs.subs d hn hnd hnodup
    (fun x hx => by
      have hk := hget x hx
      obtain ⟨a1, a2, a3, -, -, -, -, -, a4⟩ := hP x.1 x.2 hk
      exact ⟨a1, a2, a3, hdir _ _ hk, fun l hl => ⟨hw _ _ l hk hl, (a4 l hl).1⟩⟩)
  have hpaths : ∀ q, q ∈ (rs.subs.flatMap (fun e => (List.range L.toNat).map
      (fun l => (p ++ [layerCore (subsetCore e.1 core) L l ++ '.' :: suf], cs e.1 l)))).map (·.1) →
      ∃ k s, ∃ l : Nat, rs.subs.get k = some s ∧ (l : Int) < L ∧ q = p ++ [layerCore (subsetCore k core) L l ++ '.' :: suf] := by
    intro q hq
    obtain ⟨x, hx, rfl⟩ := List.mem_map.1 hq
    obtain ⟨m, hm, hx⟩ := List.mem_flatMap.1 hx
    obtain ⟨l, hl, rfl⟩ := List.mem_map.1 hx
    have := List.mem_range.1 hl
    exact ⟨m.1, m.2, l, hget m hm, by omega, rfl⟩
  refine ⟨d', ?_, ?_, ?_⟩
  · unfold outputSubsetToFile
    rw [hvalid]
    simp only [Bool.not_true, Bool.false_eq_true, if_false]
    rw [if_neg hne]
    exact o1
  · refine o2.rewritten (fun q => ⟨hpaths q, ?_⟩)
    rintro ⟨k, s, l, hk, hl, rfl⟩
    exact List.mem_map.2 ⟨_, List.mem_flatMap.2 ⟨(k, s), (IMap.mem_iff_get _ hsorted _ _).2 hk, List.mem_map.2 ⟨l, List.mem_range.2 (by omega), rfl⟩⟩, rfl⟩
  · intro k s l hk hl
    obtain ⟨a1, a2, a3, a5, a6, a7, a8, a9, a10⟩ := hP k s hk
    have hin : (p ++ [layerCore (subsetCore k core) L l ++ '.' :: suf], cs k l) ∈ rs.subs.flatMap (fun e => (List.range L.toNat).map
        (fun l => (p ++ [layerCore (subsetCore e.1 core) L l ++ '.' :: suf], cs e.1 l))) :=
      List.mem_flatMap.2 ⟨(k, s), (IMap.mem_iff_get _ hsorted _ _).2 hk, List.mem_map.2 ⟨l, List.mem_range.2 (by omega), rfl⟩⟩
    have hdirs : ∀ x ∈ rs.subs.flatMap (fun e => (List.range L.toNat).map
        (fun l => (p ++ [layerCore (subsetCore e.1 core) L l ++ '.' :: suf], cs e.1 l))), d.fs.kindOf x.1 ≠ some .dir := by
      intro x hx
      obtain ⟨k2, s2, l2, b1, b2, b3⟩ := hpaths x.1 (List.mem_map.2 ⟨x, hx, rfl⟩)
      rw [b3]
      exact (hw k2 s2 l2 b1 b2).nodir
    exact ⟨H k, (a10 l hl).2 d' (o2.nameIn hdirs hn) (by rw [o2.kind, if_pos (List.mem_map.2 ⟨_, hin, rfl⟩)]) (o2.new _ hin), a5, a6, a7, a8, a9⟩

/-- A raster that stores single cells, cut into usable subsets with disjoint cells. -/
structure Cut (rs : RasterS) (ls : List (List ℚ)) (ps : List (Int × Int)) (G : Int → List Nat) : Prop where
  comp : rs.ras.Compact ls ps
  part : PartsOf ps G rs.subs
  asc : ∀ k, (G k).Pairwise (· < ·)
  one : rs.ras.is2d = true → rs.ras.raster1 = none
  use : ∀ k s, rs.subs.get k = some s → s.usable = true
  lyrs : ∃ n, ∀ k s, rs.subs.get k = some s → s.nLyrs = n

/-- The original value at a cell of a subset. -/
theorem Cut.value {rs ls ps G} (h : Cut rs ls ps G) {k : Int} {i : Nat} (hi : i ∈ G k) {row col l : Int} (hp : posAt ps i = (row, col))
    (h0 : 0 ≤ l) (h2 : rs.ras.is2d = true → l < rs.ras.nLyrs) :
    rs.ras.getValue row col (if rs.ras.is2d then l + 1 else 1) = .ok (cellAt ls i (if rs.ras.is2d then l.toNat else 0)) := by
  have hlt := h.part.lt hi
  cases hd : rs.ras.is2d with
  | true =>
    have := compact_cell h.comp _ hlt l h0 (h2 hd)
    rw [hp] at this
    simpa using this
  | false =>
    have := compact_cell h.comp _ hlt 0 le_rfl h.comp.holds.1
    rw [hp] at this
    simpa using this

theorem Cut.comb {rs ls ps G} (h : Cut rs ls ps G) (hne : rs.subs ≠ []) {recls : IMap (List ℚ)} {m : Int} (ht : TableOf recls m)
    (h2 : rs.ras.is2d = true → m ≤ rs.ras.nLyrs) (dv : ℚ) :
    ∃ F, prepareComb rs true true recls dv = .ok (some (some F, rs.ras.hdr.rows * rs.ras.hdr.cols * m, m)) ∧
      (F.length : Int) = rs.ras.hdr.rows * rs.ras.hdr.cols * m ∧
      ∀ row col l, 0 ≤ row → row < rs.ras.hdr.rows → 0 ≤ col → col < rs.ras.hdr.cols → 0 ≤ l → l < m →
      (∀ k s, rs.subs.get k = some s → InSubset s row col → ∃ w, rs.ras.getValue row col (if rs.ras.is2d then l + 1 else 1) = .ok w ∧
        readAt (some F) ((row * rs.ras.hdr.cols + col) * m + l) = .ok (tableValue recls (truncQ w) l (fillValue rs.ras dv))) ∧
      ((∀ k s, rs.subs.get k = some s → ¬ InSubset s row col) →
        readAt (some F) ((row * rs.ras.hdr.cols + col) * m + l) = .ok rs.ras.noData) := by
  have hP := h.part
  have hC := h.comp
  have hmem : ∀ k s, (k, s) ∈ rs.subs ↔ rs.subs.get k = some s := fun k s => IMap.mem_iff_get rs.subs hP.sorted k s
  obtain ⟨n, hall⟩ := h.lyrs
  have hm := ht.2.1
  obtain ⟨lsub, hls, -⟩ : ∃ lsub, subsetLyrs rs.subs false = some lsub ∧ True := by
    obtain ⟨x, h1, -, -⟩ := subsetLyrs_recls n rs.subs (-1) (fun e he _ => hall e.1 e.2 ((hmem _ _).1 he)) (.inl rfl)
    exact ⟨x, h1, trivial⟩
  have hdef : defaultOf rs.ras dv = fillValue rs.ras dv := rfl
  -- the groups of the subsets that exist
  obtain ⟨F, e1, e2, e3, e4⟩ := comb_any hC hP m hm true recls m lsub (reclsLyrs_table ht)
    (by rw [decide_eq_false ht.1]; exact hls) (by simp; omega) hne dv
    (fun k _ j l => tableValue recls (truncQ (cellAt ls ((G k).getD j.toNat 0) (if rs.ras.is2d then l.toNat else 0))) l (fillValue rs.ras dv)) (by
      intro k s ud j l hk _ h0 h1 h3 h4
      have ho := hP.some k s hk
      have hjl : j.toNat < (G k).length := by have := ho.n; omega
      have hgl : readAt s.glob j = .ok ((G k)[j.toNat] : Int) := by
        rw [ho.glob, readAt_some_int _ _ h0 (by rw [List.length_map]; omega)]
        simp
      unfold combValue
      rw [hgl, Out.ok_bind, if_pos ht.1, hdef, recls_origin hC _ (hP.lt (List.getElem_mem hjl)) l h3
        (by intro h; have := h2 h; omega) h.one, Out.ok_bind, List.getD_eq_getElem _ _ hjl]
      rfl) true
  simp only [if_true] at e1 e2 e3 e4
  refine ⟨F, e1, e2, ?_⟩
  intro row col l r0 r1 c0 c1 l0 l1
  constructor
  · intro k s hk hin
    obtain ⟨i, hi, hp⟩ := ((hP.some k s hk).in_iff row col).1 hin
    refine ⟨_, h.value hi hp l0 (fun hd => by have := h2 hd; omega), ?_⟩
    obtain ⟨j, hj, hij⟩ := List.mem_iff_getElem.1 hi
    have t := e3 k s j l hk hj l0 l1
    rw [h.use k s hk, if_pos rfl] at t
    simp only [Int.toNat_natCast, List.getD_eq_getElem _ _ hj, hij] at t
    have hx : outIdx rs.ras ps true i = row * rs.ras.hdr.cols + col := by
      unfold outIdx
      rw [if_pos rfl, hp]
    rw [hx] at t
    exact t
  · intro hnot
    have hr := idx_range r0 r1 c0 c1
    apply e4 _ l hr.1 hr.2 l0 l1
    intro k i hi heq
    unfold outIdx at heq
    simp only [if_true] at heq
    obtain ⟨-, -, -, p3, p4, -⟩ := compact_pos hC i (hP.lt hi)
    have := idx_inj p3 p4 c0 c1 heq
    cases hk : rs.subs.get k with
    | none => rw [hP.none k hk] at hi; cases hi
    | some s => exact hnot k s hk (((hP.some k s hk).in_iff row col).2 ⟨i, hi, by ext <;> omega⟩)

theorem Cut.decomp {rs ls ps G} (h : Cut rs ls ps G) {recls : IMap (List ℚ)} {m : Int} (ht : TableOf recls m)
    (h2 : rs.ras.is2d = true → m ≤ rs.ras.nLyrs) (dv : ℚ) {k : Int} {s : Subset} (hk : rs.subs.get k = some s) :
    ∃ F, prepareSubsetData rs.ras k s true true recls dv = .ok (some (some F, (s.erow - s.srow + 1) * (s.ecol - s.scol + 1) * m, m)) ∧
      (F.length : Int) = (s.erow - s.srow + 1) * (s.ecol - s.scol + 1) * m ∧
      ∀ row col l, s.srow ≤ row → row ≤ s.erow → s.scol ≤ col → col ≤ s.ecol → 0 ≤ l → l < m →
      (InSubset s row col → ∃ w, rs.ras.getValue row col (if rs.ras.is2d then l + 1 else 1) = .ok w ∧
        readAt (some F) (((row - s.srow) * (s.ecol - s.scol + 1) + (col - s.scol)) * m + l) =
          .ok (tableValue recls (truncQ w) l (fillValue rs.ras dv))) ∧
      (¬ InSubset s row col →
        readAt (some F) (((row - s.srow) * (s.ecol - s.scol + 1) + (col - s.scol)) * m + l) = .ok rs.ras.noData) := by
  have hP := h.part
  have hC := h.comp
  have hm := ht.2.1
  have ho := hP.some k s hk
  have hdef : defaultOf rs.ras dv = fillValue rs.ras dv := rfl
  obtain ⟨F, e1, e2, e3, e4⟩ := decomp_gen hC ho (fun i hi => hP.lt hi) (h.asc k) k true true recls m m hm (reclsLyrs_table ht) (by simp; omega) dv
    (fun j l => tableValue recls (truncQ (cellAt ls ((G k).getD j 0) (if rs.ras.is2d then l.toNat else 0))) l (fillValue rs.ras dv)) (by
      intro j l hj h3 h4
      have hgl : readAt s.glob j = .ok ((G k)[j] : Int) := by
        rw [ho.glob, readAt_some_nat _ _ (by simpa using hj)]
        simp
      unfold subValue
      rw [hgl, Out.ok_bind, if_pos ht.1, hdef, recls_origin hC _ (hP.lt (List.getElem_mem hj)) l h3
        (by intro h; have := h2 h; omega) h.one, Out.ok_bind, List.getD_eq_getElem _ _ hj]
      rfl)
  simp only [if_true] at e1 e2 e3 e4
  refine ⟨F, e1, e2, ?_⟩
  intro row col l r0 r1 c0 c1 l0 l1
  constructor
  · intro hin
    obtain ⟨i, hi, hp⟩ := (ho.in_iff row col).1 hin
    refine ⟨_, h.value hi hp l0 (fun hd => by have := h2 hd; omega), ?_⟩
    obtain ⟨j, hj, hij⟩ := List.mem_iff_getElem.1 hi
    have t := e3 j hj l l0 l1
    simp only [List.getD_eq_getElem _ _ hj, hij] at t
    have hx : localOf ps s i = (row - s.srow) * (s.ecol - s.scol + 1) + (col - s.scol) := by
      unfold localOf
      rw [hp]
    rw [hx] at t
    exact t
  · intro hnot
    have hr := idx_range (rows := s.erow - s.srow + 1) (cols := s.ecol - s.scol + 1) (i := row - s.srow) (j := col - s.scol)
      (by omega) (by omega) (by omega) (by omega)
    exact e4 _ l hr.1 hr.2 l0 l1 (fun j hj => sub_outside ho c0 c1 hnot j hj)

open Classical in
/-- Reclassification of a cut raster by its own values into one file per layer of the table. -/
theorem Cut.comb_out {env : Env} {fmt : Fmt} {d : Disk} {rs ls ps G} (h : Cut rs ls ps G) (hne : rs.subs ≠ []) {recls : IMap (List ℚ)}
    {m : Int} (ht : TableOf recls m) (h2 : rs.ras.is2d = true → m ≤ rs.ras.nLyrs) {dv : ℚ} (hnd2 : rs.ras.hdr.noData = rs.ras.noData)
    {p : Path} {dt core suf : Str} (hn : NameIn d.fs p dt core suf) (hsuf : IsAscSuffix suf ∨ IsTifSuffix suf)
    (hty : IsTifSuffix suf → SameType fmt) (hnd : d.fs.kindOf (p ++ [core ++ '.' :: suf]) ≠ some .dir)
    (hnd0 : d.fs.kindOf (p ++ [subsetCore 0 core ++ '.' :: suf]) ≠ some .dir)
    (hw : ∀ l : Nat, (l : Int) < m → Writable env d.fs (p ++ [layerCore (subsetCore 0 core) m l ++ '.' :: suf]))
    (hh : CarriesHeader suf rs.ras.hdr) (hv : ∀ key l, CarriesValue fmt suf (tableValue recls key l (fillValue rs.ras dv)))
    (hnv : CarriesValue fmt suf rs.ras.noData) :
    ∃ d', outputSubsetToFile env fmt d rs true true (dt ++ core ++ '.' :: suf) recls dv = .ok (true, d') ∧
      Rewritten d d' (fun q => ∃ l : Nat, (l : Int) < m ∧ q = p ++ [layerCore (subsetCore 0 core) m l ++ '.' :: suf]) ∧
      ∀ l : Nat, (l : Int) < m → ∃ v, ReadsAs d' (dt ++ layerCore (subsetCore 0 core) m l ++ '.' :: suf) rs.ras.hdr v ∧
        ∀ row col, 0 ≤ row → row < rs.ras.hdr.rows → 0 ≤ col → col < rs.ras.hdr.cols →
          (∀ k s, rs.subs.get k = some s → InSubset s row col → ∃ w,
            rs.ras.getValue row col (if rs.ras.is2d then (l : Int) + 1 else 1) = .ok w ∧
            v row col = tableValue recls (truncQ w) l (fillValue rs.ras dv)) ∧
          ((∀ k s, rs.subs.get k = some s → ¬ InSubset s row col) → v row col = rs.ras.noData) := by
  obtain ⟨F, f1, f2, f3⟩ := h.comb hne ht h2 dv
  let gv : Int → Int → Int → ℚ := fun row col l =>
    if hx : ∃ k s w, rs.subs.get k = some s ∧ InSubset s row col ∧ rs.ras.getValue row col (if rs.ras.is2d then l + 1 else 1) = .ok w
    then tableValue recls (truncQ hx.choose_spec.choose_spec.choose) l (fillValue rs.ras dv) else rs.ras.noData
  have g1 : ∀ row col l k s w, rs.subs.get k = some s → InSubset s row col →
      rs.ras.getValue row col (if rs.ras.is2d then l + 1 else 1) = .ok w → gv row col l = tableValue recls (truncQ w) l (fillValue rs.ras dv) := by
    intro row col l k s w a b c
    have hx : ∃ k s w, rs.subs.get k = some s ∧ InSubset s row col ∧ rs.ras.getValue row col (if rs.ras.is2d then l + 1 else 1) = .ok w :=
      ⟨k, s, w, a, b, c⟩
    have t := hx.choose_spec.choose_spec.choose_spec.2.2
    have t := c.symm.trans t
    injection t with t
    show dite _ _ _ = _
    rw [dif_pos hx, ← t]
  have g2 : ∀ row col l, (∀ k s, rs.subs.get k = some s → ¬ InSubset s row col) → gv row col l = rs.ras.noData := by
    intro row col l a
    show dite _ _ _ = _
    rw [dif_neg]
    rintro ⟨k, s, w, b, c, -⟩
    exact a k s b c
  have hcell : ∀ row col l, 0 ≤ row → row < rs.ras.hdr.rows → 0 ≤ col → col < rs.ras.hdr.cols → 0 ≤ l → l < m →
      readAt (some F) ((row * rs.ras.hdr.cols + col) * m + l) = .ok (gv row col l) ∧ CarriesValue fmt suf (gv row col l) := by
    intro row col l a1 a2 a3 a4 a5 a6
    obtain ⟨u1, u2⟩ := f3 row col l a1 a2 a3 a4 a5 a6
    by_cases hx : ∃ k s, rs.subs.get k = some s ∧ InSubset s row col
    · obtain ⟨k, s, hk, hin⟩ := hx
      obtain ⟨w, w1, w2⟩ := u1 k s hk hin
      rw [w2, g1 row col l k s w hk hin w1]
      exact ⟨rfl, hv _ _⟩
    · have hx' : ∀ k s, rs.subs.get k = some s → ¬ InSubset s row col := fun k s a b => hx ⟨k, s, a, b⟩
      rw [u2 hx', g2 row col l hx']
      exact ⟨rfl, hnv⟩
  obtain ⟨d', o1, o2, o3⟩ := comb_cells (env := env) (fmt := fmt) (gv := gv) (Raster.Holds.valid h.comp.holds) hne f1 ht.2.1 f2
    (fun row col l a1 a2 a3 a4 a5 a6 => (hcell row col l a1 a2 a3 a4 a5 a6).1) hn hsuf hty hnd hnd0 hw hh
    (fun row col l a1 a2 a3 a4 a5 a6 => (hcell row col l a1 a2 a3 a4 a5 a6).2) (by rw [hnd2]; exact hnv)
  refine ⟨d', o1, o2, fun l hl => ⟨_, o3 l hl, ?_⟩⟩
  intro row col a1 a2 a3 a4
  refine ⟨?_, g2 row col l⟩
  intro k s hk hin
  obtain ⟨w, w1, -⟩ := (f3 row col l a1 a2 a3 a4 (by omega) hl).1 k s hk hin
  exact ⟨w, w1, g1 row col l k s w hk hin w1⟩

open Classical in
/-- Reclassification of a cut raster by its own values into files for the single subsets. -/
theorem Cut.sub_out {env : Env} {fmt : Fmt} {d : Disk} {rs ls ps G} (h : Cut rs ls ps G) (hne : rs.subs ≠ []) {recls : IMap (List ℚ)}
    {m : Int} (ht : TableOf recls m) (h2 : rs.ras.is2d = true → m ≤ rs.ras.nLyrs) {dv : ℚ}
    {p : Path} {dt core suf : Str} (hn : NameIn d.fs p dt core suf) (hsuf : IsAscSuffix suf ∨ IsTifSuffix suf)
    (hty : IsTifSuffix suf → SameType fmt) (hnd : d.fs.kindOf (p ++ [core ++ '.' :: suf]) ≠ some .dir)
    (hdir : ∀ k s, rs.subs.get k = some s → d.fs.kindOf (p ++ [subsetCore k core ++ '.' :: suf]) ≠ some .dir)
    (hw : ∀ k s (l : Nat), rs.subs.get k = some s → (l : Int) < m →
      Writable env d.fs (p ++ [layerCore (subsetCore k core) m l ++ '.' :: suf]))
    (hh : ∀ k s, rs.subs.get k = some s →
      CarriesHeader suf (s.getHeader rs.ras.hdr.xll rs.ras.hdr.yll rs.ras.hdr.rows rs.ras.hdr.cellsize rs.ras.noData))
    (hv : ∀ key l, CarriesValue fmt suf (tableValue recls key l (fillValue rs.ras dv))) (hnv : CarriesValue fmt suf rs.ras.noData) :
    ∃ d', outputSubsetToFile env fmt d rs true false (dt ++ core ++ '.' :: suf) recls dv = .ok (true, d') ∧
      Rewritten d d' (fun q => ∃ k s, ∃ l : Nat, rs.subs.get k = some s ∧ (l : Int) < m ∧
        q = p ++ [layerCore (subsetCore k core) m l ++ '.' :: suf]) ∧
      ∀ k s (l : Nat), rs.subs.get k = some s → (l : Int) < m → ∃ h v,
        ReadsAs d' (dt ++ layerCore (subsetCore k core) m l ++ '.' :: suf) h v ∧
        h.rows = s.erow - s.srow + 1 ∧ h.cols = s.ecol - s.scol + 1 ∧ h.cellsize = rs.ras.hdr.cellsize ∧ h.noData = rs.ras.noData ∧
        (∀ lr lc, h.grid.center lr lc = rs.ras.hdr.grid.center (s.srow + lr) (s.scol + lc)) ∧
        ∀ row col, s.srow ≤ row → row ≤ s.erow → s.scol ≤ col → col ≤ s.ecol →
          (InSubset s row col → ∃ w, rs.ras.getValue row col (if rs.ras.is2d then (l : Int) + 1 else 1) = .ok w ∧
            v (row - s.srow) (col - s.scol) = tableValue recls (truncQ w) l (fillValue rs.ras dv)) ∧
          (¬ InSubset s row col → v (row - s.srow) (col - s.scol) = rs.ras.noData) := by
  let gv : Int → Int → Int → Int → ℚ := fun k row col l =>
    if hx : ∃ s w, rs.subs.get k = some s ∧ InSubset s row col ∧ rs.ras.getValue row col (if rs.ras.is2d then l + 1 else 1) = .ok w
    then tableValue recls (truncQ hx.choose_spec.choose) l (fillValue rs.ras dv) else rs.ras.noData
  have g1 : ∀ row col l k s w, rs.subs.get k = some s → InSubset s row col →
      rs.ras.getValue row col (if rs.ras.is2d then l + 1 else 1) = .ok w → gv k row col l = tableValue recls (truncQ w) l (fillValue rs.ras dv) := by
    intro row col l k s w a b c
    have hx : ∃ s w, rs.subs.get k = some s ∧ InSubset s row col ∧ rs.ras.getValue row col (if rs.ras.is2d then l + 1 else 1) = .ok w :=
      ⟨s, w, a, b, c⟩
    have t := hx.choose_spec.choose_spec.2.2
    have t := c.symm.trans t
    injection t with t
    show dite _ _ _ = _
    rw [dif_pos hx, ← t]
  have g2 : ∀ row col l k s, rs.subs.get k = some s → ¬ InSubset s row col → gv k row col l = rs.ras.noData := by
    intro row col l k s hk a
    show dite _ _ _ = _
    rw [dif_neg]
    rintro ⟨s', w, b, c, -⟩
    rw [hk] at b
    injection b with b
    subst b
    exact a c
  have hcell : ∀ k s, rs.subs.get k = some s → ∃ F : List ℚ,
      prepareSubsetData rs.ras k s true true recls dv = .ok (some (some F, (s.erow - s.srow + 1) * (s.ecol - s.scol + 1) * m, m)) ∧
      (F.length : Int) = (s.erow - s.srow + 1) * (s.ecol - s.scol + 1) * m ∧
      ∀ row col l, s.srow ≤ row → row ≤ s.erow → s.scol ≤ col → col ≤ s.ecol → 0 ≤ l → l < m →
        readAt (some F) (((row - s.srow) * (s.ecol - s.scol + 1) + (col - s.scol)) * m + l) = .ok (gv k row col l) ∧
        CarriesValue fmt suf (gv k row col l) := by
    intro k s hk
    obtain ⟨F, f1, f2, f3⟩ := h.decomp ht h2 dv hk
    refine ⟨F, f1, f2, ?_⟩
    intro row col l a1 a2 a3 a4 a5 a6
    obtain ⟨u1, u2⟩ := f3 row col l a1 a2 a3 a4 a5 a6
    by_cases hin : InSubset s row col
    · obtain ⟨w, w1, w2⟩ := u1 hin
      rw [w2, g1 row col l k s w hk hin w1]
      exact ⟨rfl, hv _ _⟩
    · rw [u2 hin, g2 row col l k s hk hin]
      exact ⟨rfl, hnv⟩
  obtain ⟨d', o1, o2, o3⟩ := sub_cells (env := env) (fmt := fmt) (gv := gv) (oo := true) (recls := recls) (dv := dv)
    (Raster.Holds.valid h.comp.holds) hne h.part.sorted ht.2.1
    (fun k s hk => by
      obtain ⟨F, f1, f2, f3⟩ := hcell k s hk
      exact ⟨h.use k s hk, F, f1, f2, fun row col l a1 a2 a3 a4 a5 a6 => (f3 row col l a1 a2 a3 a4 a5 a6).1⟩) hn hsuf hty hnd hdir hw hh
    (fun k s hk row col l a1 a2 a3 a4 a5 a6 => by
      obtain ⟨F, f1, f2, f3⟩ := hcell k s hk
      exact (f3 row col l a1 a2 a3 a4 a5 a6).2) hnv
  refine ⟨d', o1, o2, fun k s l hk hl => ?_⟩
  obtain ⟨hd, t1, t2, t3, t4, t5, t6⟩ := o3 k s l hk hl
  refine ⟨hd, _, t1, t2, t3, t4, t5, t6, ?_⟩
  intro row col a1 a2 a3 a4
  simp only [add_sub_cancel]
  refine ⟨?_, g2 row col l k s hk⟩
  intro hin
  obtain ⟨F, -, -, f3⟩ := h.decomp ht h2 dv hk
  obtain ⟨w, w1, -⟩ := (f3 row col l a1 a2 a3 a4 (by omega) hl).1 hin
  exact ⟨w, w1, g1 row col l k s w hk hin w1⟩

/-- `BuildSubSet` cuts the raster. -/
theorem cut_build {r : Raster} (hb : Built r) {groups : List (Int × Int)} {rs' : RasterS} {b : Bool}
    (e : buildSubSet ⟨r, []⟩ groups = .ok (rs', b)) (hne : rs'.subs ≠ []) : ∃ ls ps G, Cut rs' ls ps G := by
  have hbt : rs'.ras.Tidy := by
    obtain ⟨rs1, b1, e1, hb1, -⟩ := build_spec hb groups
    rw [e] at e1
    injection e1 with e1
    injection e1 with ea eb
    subst ea
    exact hb1.tidy
  obtain ⟨-, -, -, -, -, -, -, ⟨ls, ps, hC, hok⟩ | hn⟩ := build_cases2 hb e
  · refine ⟨ls, ps, groupCells rs'.ras ls ps groups, hC, ⟨hok.sorted, fun k s hk => (hok.some k s hk).1, hok.none, groupCells_lt,
      groupCells_nodup _ _ _ _, groupCells_disj⟩, groupCells_sorted _ _ _ _, hbt.n1, fun k s hk => (hok.some k s hk).2.1, -1,
      fun k s hk => (hok.some k s hk).2.2.1⟩
  · exact absurd hn hne

/-- C75, reclassification by original value to one file per layer of the table: as `C75_reclass_partial`, but the key is the raster's own
value at the cell (of the same layer for a raster with layers, which needs as many layers as the table). -/
theorem C75_reclass_origin_partial {env : Env} {fmt : Fmt} {d : Disk} {r : Raster} (hb : Built r) {groups : List (Int × Int)} {rs' : RasterS}
    {b : Bool} (e : buildSubSet ⟨r, []⟩ groups = .ok (rs', b)) (hne : rs'.subs ≠ []) {recls : List (Int × List ℚ)} {m : Int}
    (ht : TableOf recls m) (h2 : r.is2d = true → m ≤ r.nLyrs)
    {p : Path} {dt core suf : Str} (hn : NameIn d.fs p dt core suf) (hsuf : IsAscSuffix suf ∨ IsTifSuffix suf)
    (hty : IsTifSuffix suf → SameType fmt) (hnd : d.fs.kindOf (p ++ [core ++ '.' :: suf]) ≠ some .dir)
    (hnd0 : d.fs.kindOf (p ++ [subsetCore 0 core ++ '.' :: suf]) ≠ some .dir)
    (hw : ∀ l : Nat, (l : Int) < m → Writable env d.fs (p ++ [layerCore (subsetCore 0 core) m l ++ '.' :: suf]))
    (hh : CarriesHeader suf r.hdr) {dv : ℚ} (hv : ∀ k l, CarriesValue fmt suf (tableValue recls k l (fillValue r dv)))
    (hnv : CarriesValue fmt suf r.noData) :
    ∃ d', outputSubsetToFile env fmt d rs' true true (dt ++ core ++ '.' :: suf) recls dv = .ok (true, d') ∧
      Rewritten d d' (fun q => ∃ l : Nat, (l : Int) < m ∧ q = p ++ [layerCore (subsetCore 0 core) m l ++ '.' :: suf]) ∧
      ∀ l : Nat, (l : Int) < m → ∃ v, ReadsAs d' (dt ++ layerCore (subsetCore 0 core) m l ++ '.' :: suf) r.hdr v ∧
        ∀ row col, 0 ≤ row → row < r.hdr.rows → 0 ≤ col → col < r.hdr.cols →
          (∀ x, ValidCell r row col x → ∃ w, r.getValue row col (if r.is2d then (l : Int) + 1 else 1) = .ok w ∧
            v row col = tableValue recls (truncQ w) l (fillValue r dv)) ∧
          ((¬ ∃ x, ValidCell r row col x) → v row col = r.noData) := by
  obtain ⟨ls, ps, G, hcut⟩ := cut_build hb e hne
  obtain ⟨n0, hhdr⟩ := build_hdr e
  obtain ⟨hrw, hcl, hndr, hly, h2d, hdf, hval, -⟩ := build_cases2 hb e
  have hnd2 : r.hdr.noData = r.noData := hb.hdrOk.nd
  have hfill : fillValue rs'.ras dv = fillValue r dv := by unfold fillValue; rw [hdf]
  obtain ⟨d', o1, o2, o3⟩ := hcut.comb_out (env := env) (fmt := fmt) (d := d) (dv := dv) hne ht (by rw [h2d, hly]; exact h2)
    (by rw [hhdr, hndr]; exact hnd2) hn hsuf hty hnd hnd0 hw (by rw [hhdr]; exact hh) (by rw [hfill]; exact hv) (by rw [hndr]; exact hnv)
  refine ⟨d', o1, o2, fun l hl => ?_⟩
  obtain ⟨v, v1, v2⟩ := o3 l hl
  refine ⟨v, ?_, ?_⟩
  · rw [hhdr] at v1
    exact readsAs_congr v1 rfl rfl rfl rfl rfl rfl (fun _ _ _ _ _ _ => rfl)
  · intro row col a1 a2 a3 a4
    obtain ⟨u1, u2⟩ := v2 row col a1 (by rw [hrw]; exact a2) a3 (by rw [hcl]; exact a4)
    constructor
    · intro x hx
      obtain ⟨⟨s, hk, hin⟩, -⟩ := C13_partition hb groups e row col x hx
      obtain ⟨w, w1, w2⟩ := u1 _ s hk hin
      rw [h2d, hval row col _ x hx] at w1
      exact ⟨w, w1, by rw [w2, hfill]⟩
    · intro hx
      rw [u2 (fun k s hk hin => hx ?_), hndr]
      obtain ⟨x, hx, -⟩ := (C13_only hb groups e k s hk).1 row col hin
      exact ⟨x, hx⟩

/-- C75, reclassification by original value to files for the single subsets: each file reads back as the rectangle of its subset at its place
in the grid of the raster, with the table's value for the raster's own value at the cells of the subset and NoData at the others. -/
theorem C75_reclass_subsets_partial {env : Env} {fmt : Fmt} {d : Disk} {r : Raster} (hb : Built r) {groups : List (Int × Int)} {rs' : RasterS}
    {b : Bool} (e : buildSubSet ⟨r, []⟩ groups = .ok (rs', b)) (hne : rs'.subs ≠ []) {recls : List (Int × List ℚ)} {m : Int}
    (ht : TableOf recls m) (h2 : r.is2d = true → m ≤ r.nLyrs)
    {p : Path} {dt core suf : Str} (hn : NameIn d.fs p dt core suf) (hsuf : IsAscSuffix suf ∨ IsTifSuffix suf)
    (hty : IsTifSuffix suf → SameType fmt) (hnd : d.fs.kindOf (p ++ [core ++ '.' :: suf]) ≠ some .dir)
    (hdir : ∀ k s, rs'.subs.get k = some s → d.fs.kindOf (p ++ [subsetCore k core ++ '.' :: suf]) ≠ some .dir)
    (hw : ∀ k s (l : Nat), rs'.subs.get k = some s → (l : Int) < m →
      Writable env d.fs (p ++ [layerCore (subsetCore k core) m l ++ '.' :: suf]))
    (hh : ∀ k s, rs'.subs.get k = some s → CarriesHeader suf (s.getHeader r.hdr.xll r.hdr.yll r.hdr.rows r.hdr.cellsize r.noData))
    {dv : ℚ} (hv : ∀ k l, CarriesValue fmt suf (tableValue recls k l (fillValue r dv))) (hnv : CarriesValue fmt suf r.noData) :
    ∃ d', outputSubsetToFile env fmt d rs' true false (dt ++ core ++ '.' :: suf) recls dv = .ok (true, d') ∧
      Rewritten d d' (fun q => ∃ k s, ∃ l : Nat, rs'.subs.get k = some s ∧ (l : Int) < m ∧
        q = p ++ [layerCore (subsetCore k core) m l ++ '.' :: suf]) ∧
      ∀ k s (l : Nat), rs'.subs.get k = some s → (l : Int) < m → ∃ h v,
        ReadsAs d' (dt ++ layerCore (subsetCore k core) m l ++ '.' :: suf) h v ∧
        h.rows = s.erow - s.srow + 1 ∧ h.cols = s.ecol - s.scol + 1 ∧ h.cellsize = r.hdr.cellsize ∧ h.noData = r.noData ∧
        (∀ lr lc, h.grid.center lr lc = r.hdr.grid.center (s.srow + lr) (s.scol + lc)) ∧
        ∀ row col, s.srow ≤ row → row ≤ s.erow → s.scol ≤ col → col ≤ s.ecol →
          (InSubset s row col → ∃ w, r.getValue row col (if r.is2d then (l : Int) + 1 else 1) = .ok w ∧
            v (row - s.srow) (col - s.scol) = tableValue recls (truncQ w) l (fillValue r dv)) ∧
          (¬ InSubset s row col → v (row - s.srow) (col - s.scol) = r.noData) := by
  obtain ⟨ls, ps, G, hcut⟩ := cut_build hb e hne
  obtain ⟨n0, hhdr⟩ := build_hdr e
  obtain ⟨hrw, hcl, hndr, hly, h2d, hdf, hval, -⟩ := build_cases2 hb e
  have hfill : fillValue rs'.ras dv = fillValue r dv := by unfold fillValue; rw [hdf]
  obtain ⟨d', o1, o2, o3⟩ := hcut.sub_out (env := env) (fmt := fmt) (d := d) (dv := dv) hne ht (by rw [h2d, hly]; exact h2)
    hn hsuf hty hnd hdir hw (by rw [hhdr, hndr]; exact hh) (by rw [hfill]; exact hv) (by rw [hndr]; exact hnv)
  refine ⟨d', o1, o2, fun k s l hk hl => ?_⟩
  obtain ⟨h, v, v1, v2, v3, v4, v5, v6, v7⟩ := o3 k s l hk hl
  refine ⟨h, v, v1, v2, v3, by rw [v4, hhdr], by rw [v5, hndr], ?_, ?_⟩
  · intro lr lc
    rw [v6, hhdr]
    rfl
  · intro row col a1 a2 a3 a4
    obtain ⟨u1, u2⟩ := v7 row col a1 a2 a3 a4
    refine ⟨fun hin => ?_, fun hin => by rw [u2 hin, hndr]⟩
    obtain ⟨w, w1, w2⟩ := u1 hin
    obtain ⟨x, hx, -⟩ := (C13_only hb groups e k s hk).1 row col hin
    rw [h2d, hval row col _ x hx] at w1
    exact ⟨w, w1, by rw [w2, hfill]⟩

/-! ## Examples -/

theorem exTable_int (k l : Int) : ∃ n : Int, tableValue [(2, [20]), (3, [30])] k l (fillValue exMask (-9999)) = n := by
  have hd : fillValue exMask (-9999) = ((-9999 : Int) : ℚ) := by decide +kernel
  rw [hd]
  unfold tableValue
  cases hf : ([(2, [20]), (3, [30])] : List (Int × List ℚ)).find? (fun e => decide (e.1 = k)) with
  | none => exact ⟨-9999, rfl⟩
  | some e =>
    have hm := List.mem_of_find?_eq_some hf
    dsimp only
    simp only [List.mem_cons, List.not_mem_nil, or_false] at hm
    rcases hm with rfl | rfl
    · cases hl : l.toNat with
      | zero => exact ⟨20, by simp⟩
      | succ n => exact ⟨-9999, by simp⟩
    · cases hl : l.toNat with
      | zero => exact ⟨30, by simp⟩
      | succ n => exact ⟨-9999, by simp⟩

/-- The example mask, whose value 3 belongs to subset 1, is reclassified by its own values (2: 20, 3: 30) into `/w/0_a.tif`. -/
example : ∃ d' r', outputSubsetToFile okEnv exFmt exNewDisk exSubs.1 true true "/w/a.tif".toList [(2, [20]), (3, [30])] (-9999) = .ok (true, d') ∧
    readFromFile d' "/w/0_a.tif".toList false 0 = .ok (some r') ∧ r'.getValue 1 2 1 = .ok 30 := by
  obtain ⟨d', o, -, hr⟩ := C75_reclass_origin_partial (env := okEnv) (fmt := exFmt) (d := exNewDisk) exMask_built exSubs_eq (by decide +kernel)
    (recls := [(2, [20]), (3, [30])]) (m := 1) ⟨by simp, by decide, by simp⟩ (by decide +kernel)
    (exName "a".toList "tif".toList (by decide) (by decide)) (.inr exTif) (fun _ => ⟨by decide, .inl rfl⟩) (by rw [exKind]; simp) (by rw [exKind]; simp) (fun l _ => exWritable _)
    ⟨by decide +kernel, by decide +kernel, fun ha => (asc_not_tif ha exTif).elim⟩ (dv := -9999)
    (fun k l => by
      obtain ⟨n, hn⟩ := exTable_int k l
      rw [hn]
      exact exFmt_carries _ n) (by
      have : exMask.noData = ((-9999 : Int) : ℚ) := by decide +kernel
      rw [this]
      exact exFmt_carries _ _)
  obtain ⟨v, hR, hv⟩ := hr 0 (by decide)
  obtain ⟨r', a0, -, -, -, -, -, -, -, -, a8⟩ := hR false 0 (by simp)
  have en : "/w/".toList ++ layerCore (subsetCore 0 "a".toList) 1 0 ++ '.' :: "tif".toList = "/w/0_a.tif".toList := by decide +kernel
  rw [en] at a0
  refine ⟨d', r', o, a0, ?_⟩
  rw [a8 1 2 (by decide) (by decide +kernel) (by decide) (by decide +kernel)]
  obtain ⟨w, w1, w2⟩ := (hv 1 2 (by decide) (by decide +kernel) (by decide) (by decide +kernel)).1 3 ⟨by decide +kernel, by decide +kernel⟩
  have h3 : exMask.getValue 1 2 (if exMask.is2d = true then ((0 : Nat) : Int) + 1 else 1) = .ok 3 := by decide +kernel
  rw [h3] at w1
  injection w1 with w1
  subst w1
  have ht : tableValue [(2, [20]), (3, [30])] (truncQ 3) ((0 : Nat) : Int) (fillValue exMask (-9999)) = 30 := by decide +kernel
  rw [ht] at w2
  simp [w2]

/-- The same into the files of the subsets. -/
example : ∃ d', outputSubsetToFile okEnv exFmt exNewDisk exSubs.1 true false "/w/a.tif".toList [(2, [20]), (3, [30])] (-9999) = .ok (true, d') ∧
    ∃ h v, ReadsAs d' "/w/1_a.tif".toList h v := by
  have hsubs : exSubs.1.subs.map (fun e => (e.1, e.2.srow, e.2.erow, e.2.scol, e.2.ecol)) = [(1, 0, 1, 0, 2), (2, 0, 1, 1, 2)] := by decide +kernel
  have hk : ∀ k s, exSubs.1.subs.get k = some s → s.srow ≤ s.erow ∧ s.scol ≤ s.ecol := by
    intro k s hks
    have hm := List.mem_map_of_mem (f := fun e : Int × Subset => (e.1, e.2.srow, e.2.erow, e.2.scol, e.2.ecol)) (IMap.get_mem hks)
    rw [hsubs] at hm
    simp only [List.mem_cons, Prod.mk.injEq, List.not_mem_nil, or_false] at hm
    omega
  obtain ⟨d', o, -, hr⟩ := C75_reclass_subsets_partial (env := okEnv) (fmt := exFmt) (d := exNewDisk) exMask_built exSubs_eq (by decide +kernel)
    (recls := [(2, [20]), (3, [30])]) (m := 1) ⟨by simp, by decide, by simp⟩ (by decide +kernel)
    (exName "a".toList "tif".toList (by decide) (by decide)) (.inr exTif) (fun _ => ⟨by decide, .inl rfl⟩) (by rw [exKind]; simp)
    (fun _ _ _ => by rw [exKind]; simp) (fun _ _ l _ _ => exWritable _)
    (fun k s hks => ⟨by have := hk k s hks; show 0 < s.erow - s.srow + 1; omega, by have := hk k s hks; show 0 < s.ecol - s.scol + 1; omega,
      fun ha => (asc_not_tif ha exTif).elim⟩) (dv := -9999)
    (fun k l => by
      obtain ⟨n, hn⟩ := exTable_int k l
      rw [hn]
      exact exFmt_carries _ n) (by
      have : exMask.noData = ((-9999 : Int) : ℚ) := by decide +kernel
      rw [this]
      exact exFmt_carries _ _)
  have h1 : (exSubs.1.subs.get 1).isSome = true := by decide +kernel
  obtain ⟨s, hs⟩ := Option.isSome_iff_exists.1 h1
  obtain ⟨h, v, hR, -⟩ := hr 1 s 0 hs (by decide)
  have en : "/w/".toList ++ layerCore (subsetCore 1 "a".toList) 1 0 ++ '.' :: "tif".toList = "/w/1_a.tif".toList := by decide +kernel
  rw [en] at hR
  exact ⟨d', o, h, v, hR⟩

end Disk
end CCGL
