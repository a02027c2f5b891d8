import Verif.Spec.AppReclsL
import Verif.Props.AppLayers
import Verif.Props.AppRecls
/-!
# Lemmas about reclassification jobs of `mask_rasterio` with several input files
-/
namespace CCGL
namespace App
open Fs Disk Main Raster Disk.Spec App.Spec

/-- The raster and the subsets a job writes stand for a grid whose layers have the numbers `V` and with groups `g`; the table has `m` columns. -/
structure ReadyL (rs : RasterS) (h : Header) (V : Nat → Int → Int → ℚ → Prop) (g : Groups) (m : Int) (dv fill : ℚ) : Prop where
  cut : rs.subs ≠ [] → ∃ ls ps G, Cut rs ls ps G
  lay : rs.ras.is2d = true → m ≤ rs.ras.nLyrs
  grid : rs.ras.hdr.grid = h.grid
  nd : rs.ras.noData = h.noData
  hnd : rs.ras.hdr.noData = h.noData
  fill : CCGL.Spec.fillValue rs.ras dv = fill
  grp : ∀ k row col, g k row col ↔ ∃ s, rs.subs.get k = some s ∧ CCGL.Spec.InSubset s row col
  val : ∀ k row col (l : Nat) x, g k row col → (l : Int) < m → rs.ras.getValue row col (if rs.ras.is2d then (l : Int) + 1 else 1) = .ok x → V l row col x

theorem ReadyL.cells {rs h V g m dv fill} (H : ReadyL rs h V g m dv fill) {k : Int} {s : Subset} (hk : rs.subs.get k = some s) :
    g k = CCGL.Spec.InSubset s := by
  funext row col
  apply propext
  rw [H.grp]
  constructor
  · rintro ⟨s', a, b⟩
    rw [hk] at a
    injection a with a
    rw [a]; exact b
  · exact fun b => ⟨s, hk, b⟩

theorem ReadyL.present {rs h V g m dv fill} (H : ReadyL rs h V g m dv fill) (k : Int) : Present g k ↔ ∃ s, rs.subs.get k = some s := by
  constructor
  · rintro ⟨row, col, hg⟩
    obtain ⟨s, a, -⟩ := (H.grp k row col).1 hg
    exact ⟨s, a⟩
  · rintro ⟨s, hk⟩
    have hne : rs.subs ≠ [] := by
      intro h0
      rw [h0, IMap.get_nil] at hk
      cases hk
    obtain ⟨ls, ps, G, hc⟩ := H.cut hne
    obtain ⟨col, hb⟩ := (cut_box hc hk).top
    exact ⟨_, col, (H.grp _ _ _).2 ⟨s, hk, hb⟩⟩

theorem ReadyL.any {rs h V g m dv fill} (H : ReadyL rs h V g m dv fill) : (∃ k, Present g k) ↔ rs.subs ≠ [] := by
  constructor
  · rintro ⟨k, hk⟩ h0
    obtain ⟨s, hk⟩ := (H.present k).1 hk
    rw [h0, IMap.get_nil] at hk
    cases hk
  · intro hne
    obtain ⟨ls, ps, G, hc⟩ := H.cut hne
    obtain ⟨e, es, he⟩ := List.exists_cons_of_ne_nil hne
    have hm : (e.1, e.2) ∈ rs.subs := by rw [he]; exact List.mem_cons_self
    exact ⟨e.1, (H.present _).2 ⟨e.2, (IMap.mem_iff_get _ hc.part.sorted _ _).1 hm⟩⟩


/-- The combined output. -/
theorem write_allL {sys : Sys} {d : Disk} {mode : IOMode} {j : Job} {rs h V g fill p dt core suf m} (H : ReadyL rs h V g m j.default.toQ fill)
    (W : CanWrite sys d mode j h g fill p dt core suf m) (hm : WantsAll mode) (hp : ∃ k, Present g k) :
    ∃ d', outputSubsetToFile sys.env (sys.fmt j.type) d rs true true j.out (tableOf j.table) j.default.toQ = .ok (true, d') ∧
      Rewritten d d' (fun q => ∃ l : Nat, (l : Int) < m ∧ q = outPath p core suf m 0 l) ∧
      CombinedL d' (outFile dt core suf m 0) m h V g (numTable j) fill := by
  have hne := H.any.1 hp
  obtain ⟨ls, ps, G, hc⟩ := H.cut hne
  obtain ⟨w1, w2, w3⟩ := W.all hm
  have hg := H.grid
  unfold Header.grid at hg
  injection hg with g1 g2 g3 g4 g5
  obtain ⟨d', o1, o2, o3⟩ := hc.comb_out (env := sys.env) (fmt := sys.fmt j.type) (d := d) (dv := j.default.toQ) hne (table_ok W.table)
    H.lay (by rw [H.hnd, H.nd]) W.name (W.kind.imp_right (·.1))
    (fun ht => by
      rcases W.kind with h | h
      · exact (asc_not_tif h ht).elim
      · exact h.2) W.nodir w2 w3 (by
      unfold CarriesHeader at w1 ⊢
      rw [g1, g2, g3, g4, g5, H.hnd]
      exact w1)
    (fun key l => by rw [H.fill, table_value W.keys]; exact W.vals key l) (by rw [H.nd]; exact W.nodata)
  refine ⟨d', by rw [W.out]; exact o1, o2, ?_⟩
  intro l hl
  obtain ⟨w, r1, r2⟩ := o3 l hl
  refine ⟨w, ReadsAs.change r1 H.grid.symm H.hnd.symm (fun _ _ _ => rfl), ?_⟩
  intro row col hin
  have hin' : 0 ≤ row ∧ row < h.rows ∧ 0 ≤ col ∧ col < h.cols := hin
  obtain ⟨u1, u2⟩ := r2 row col hin'.1 (by rw [g1]; exact hin'.2.1) hin'.2.2.1 (by rw [g2]; exact hin'.2.2.2)
  constructor
  · rintro ⟨k, hk⟩
    obtain ⟨s, a, b⟩ := (H.grp k row col).1 hk
    obtain ⟨x, x1, x2⟩ := u1 k s a b
    refine ⟨x, H.val k row col l x hk hl x1, ?_⟩
    rw [x2, H.fill, table_value W.keys]
  · intro hno
    rw [u2 (fun k s a b => hno ⟨k, (H.grp k row col).2 ⟨s, a, b⟩⟩), H.nd]

/-- The output of the groups. -/
theorem write_singleL {sys : Sys} {d : Disk} {mode : IOMode} {j : Job} {rs h V g fill p dt core suf m} (H : ReadyL rs h V g m j.default.toQ fill)
    (W : CanWrite sys d mode j h g fill p dt core suf m) (hm : WantsSingle mode) (hp : ∃ k, Present g k) :
    ∃ d', outputSubsetToFile sys.env (sys.fmt j.type) d rs true false j.out (tableOf j.table) j.default.toQ = .ok (true, d') ∧
      Rewritten d d' (fun q => ∃ k, ∃ l : Nat, Present g k ∧ (l : Int) < m ∧ q = outPath p core suf m k l) ∧
      ∀ k, Present g k → SingleL d' (outFile dt core suf m k) m h V (g k) (numTable j) fill := by
  have hne := H.any.1 hp
  obtain ⟨ls, ps, G, hc⟩ := H.cut hne
  have hg := H.grid
  unfold Header.grid at hg
  injection hg with g1 g2 g3 g4 g5
  have hx : ∀ s : Subset, rs.ras.hdr.xll = h.xll := fun _ => g4
  obtain ⟨d', o1, o2, o3⟩ := hc.sub_out (env := sys.env) (fmt := sys.fmt j.type) (d := d) (dv := j.default.toQ) hne (table_ok W.table)
    H.lay W.name (W.kind.imp_right (·.1))
    (fun ht => by
      rcases W.kind with h | h
      · exact (asc_not_tif h ht).elim
      · exact h.2) W.nodir (fun k s hk => (W.single hm k ((H.present k).2 ⟨s, hk⟩)).2.1)
    (fun k s l hk hl => (W.single hm k ((H.present k).2 ⟨s, hk⟩)).2.2 l hl) (fun k s hk => by
      have hcr := (W.single hm k ((H.present k).2 ⟨s, hk⟩)).1 s.srow s.erow s.scol s.ecol (by rw [H.cells hk]; exact cut_box hc hk)
      have e1 : (s.scol : ℚ) * h.cellsize + h.xll = h.xll + s.scol * h.cellsize := by ring
      have e2 : ((h.rows - s.erow - 1 : Int) : ℚ) * h.cellsize + h.yll = h.yll + ((h.rows - 1 - s.erow : Int) : ℚ) * h.cellsize := by
        push_cast; ring
      unfold CarriesHeader Subset.getHeader
      dsimp only
      rw [g1, g3, g4, g5, H.nd, e1, e2]
      exact hcr)
    (fun key l => by rw [H.fill, table_value W.keys]; exact W.vals key l) (by rw [H.nd]; exact W.nodata)
  refine ⟨d', by rw [W.out]; exact o1, ?_, ?_⟩
  · have hpp : (fun q => ∃ k s, ∃ l : Nat, rs.subs.get k = some s ∧ (l : Int) < m ∧ q = p ++ [layerCore (subsetCore k core) m l ++ '.' :: suf]) =
        (fun q => ∃ k, ∃ l : Nat, Present g k ∧ (l : Int) < m ∧ q = outPath p core suf m k l) := by
      funext q
      apply propext
      constructor
      · rintro ⟨k, s, l, a, b, c⟩
        exact ⟨k, l, (H.present k).2 ⟨s, a⟩, b, c⟩
      · rintro ⟨k, l, a, b, c⟩
        obtain ⟨s, a⟩ := (H.present k).1 a
        exact ⟨k, s, l, a, b, c⟩
    rw [hpp] at o2
    exact o2
  · intro k hk
    obtain ⟨s, hk⟩ := (H.present k).1 hk
    refine ⟨s.srow, s.erow, s.scol, s.ecol, by rw [H.cells hk]; exact cut_box hc hk, ?_⟩
    intro l hl
    obtain ⟨h', w, r1, r2, r3, r4, r5, r6, r7⟩ := o3 k s l hk hl
    refine ⟨w, ReadsAs.change r1 ?_ ?_ (fun _ _ _ => rfl), ?_⟩
    · have hcen := r6 (s.erow - s.srow) 0
      unfold CCGL.Spec.Grid.center CCGL.Spec.Grid.left CCGL.Spec.Grid.top CCGL.Spec.Grid.bottom Header.grid at hcen
      dsimp only at hcen
      rw [r2, r4, g1, g3, g4, g5] at hcen
      injection hcen with x1 x2
      unfold Header.grid boxHeader
      dsimp only
      rw [r2, r3, r4, g3]
      congr 1
      · push_cast at x1
        linarith
      · push_cast at x2 ⊢
        linarith
    · rw [r5, H.nd]; rfl
    · intro row col a1 a2 a3 a4
      obtain ⟨u1, u2⟩ := r7 row col a1 a2 a3 a4
      rw [H.cells hk]
      constructor
      · intro hin
        obtain ⟨x, x1, x2⟩ := u1 hin
        refine ⟨x, H.val k row col l x ((H.grp k row col).2 ⟨s, hk, hin⟩) hl x1, ?_⟩
        rw [x2, H.fill, table_value W.keys]
      · intro hno
        rw [u2 hno, H.nd]


/-- Files that are not rewritten keep an output. -/
theorem single_sameL {d d' : Disk} {p : Path} {dt core suf : Str} {m k : Int} {h V c T fill} {new : Path → Prop} (hn : NameIn d.fs p dt core suf)
    (hr : Rewritten d d' new) (hd : ∀ q, new q → d.fs.kindOf q ≠ some .dir)
    (hf : ∀ l : Nat, (l : Int) < m → d.fs.kindOf (outPath p core suf m k l) = some .file ∧ ¬ new (outPath p core suf m k l))
    (S : SingleL d (outFile dt core suf m k) m h V c T fill) : SingleL d' (outFile dt core suf m k) m h V c T fill := by
  obtain ⟨r0, r1, c0, c1, hb, hS⟩ := S
  refine ⟨r0, r1, c0, c1, hb, fun l hl => ?_⟩
  obtain ⟨w, w1, w2⟩ := hS l hl
  exact ⟨w, reads_same hn.wf hr hd (resolve_file hn (hf l hl).1) (hf l hl).2 w1, w2⟩


/-- Writing the result of a reclassification job. -/
theorem write_reclsL {sys : Sys} {d : Disk} {mode : IOMode} {j : Job} {rs h V g fill p dt core suf m} (hout : j.outFmt = .sfile) (hre : j.recls = true)
    (H : ReadyL rs h V g m j.default.toQ fill) (W : CanWrite sys d mode j h g fill p dt core suf m) :
    ∃ d', writeJob sys mode j rs d = .ok d' ∧ Rewritten d d' (Targets mode g p core suf m) ∧
      ReclsOutputL d' mode j h V g fill dt core suf m := by
  have hstep1 : ∃ d1, (if outSubset mode then do
        let w ← outputSubsetToFile sys.env (sys.fmt j.type) d rs true false j.out (tableOf j.table) j.default.toQ
        return w.2
      else return d : Out Disk) = .ok d1 ∧
      Rewritten d d1 (fun q => WantsSingle mode ∧ ∃ k, ∃ l : Nat, Present g k ∧ (l : Int) < m ∧ q = outPath p core suf m k l) ∧
      (WantsSingle mode → ∀ k, Present g k → SingleL d1 (outFile dt core suf m k) m h V (g k) (numTable j) fill) := by
    by_cases hm : WantsSingle mode
    · rw [if_pos ((outSubset_iff mode).2 hm)]
      by_cases hp : ∃ k, Present g k
      · obtain ⟨d1, o1, o2, o3⟩ := write_singleL H W hm hp
        refine ⟨d1, by rw [o1]; rfl, ?_, fun _ => o3⟩
        have hpp : (fun q => WantsSingle mode ∧ ∃ k, ∃ l : Nat, Present g k ∧ (l : Int) < m ∧ q = outPath p core suf m k l) =
            (fun q => ∃ k, ∃ l : Nat, Present g k ∧ (l : Int) < m ∧ q = outPath p core suf m k l) := by
          funext q
          exact propext ⟨fun h => h.2, fun h => ⟨hm, h⟩⟩
        rw [hpp]
        exact o2
      · have hs : rs.subs = [] := by
          by_contra hne
          exact hp (H.any.2 hne)
        refine ⟨d, by rw [none_written hs]; rfl, rewritten_refl W.name.wf ?_, fun _ k hk => absurd ⟨k, hk⟩ hp⟩
        rintro q ⟨-, k, l, hk, -⟩
        exact hp ⟨k, hk⟩
    · rw [if_neg (fun h => hm ((outSubset_iff mode).1 h))]
      exact ⟨d, rfl, rewritten_refl W.name.wf (fun q h => hm h.1), fun h => absurd h hm⟩
  obtain ⟨d1, e1, r1, s1⟩ := hstep1
  have hd1 : ∀ q, (WantsSingle mode ∧ ∃ k, ∃ l : Nat, Present g k ∧ (l : Int) < m ∧ q = outPath p core suf m k l) → d.fs.kindOf q ≠ some .dir :=
    fun q hq => targets_nodir W (.inl hq)
  have W1 := canWrite_same r1 hd1 W
  have hw : writeJob sys mode j rs d = (do
      if outAll mode then do
        let w ← outputSubsetToFile sys.env (sys.fmt j.type) d1 rs true true j.out (tableOf j.table) j.default.toQ
        return w.2
      else return d1 : Out Disk) := by
    unfold writeJob
    rw [if_neg (by rw [hout]; simp), hre, if_pos rfl, e1]
    rfl
  rw [hw]
  by_cases hm : WantsAll mode
  · rw [if_pos ((outAll_iff mode).2 hm)]
    by_cases hp : ∃ k, Present g k
    · obtain ⟨d2, o1, o2, o3⟩ := write_allL H W1 hm hp
      refine ⟨d2, by rw [o1]; rfl, rewritten_trans r1 o2 ?_, ⟨fun _ _ => o3, ?_⟩⟩
      · intro q
        constructor
        · rintro (h | ⟨-, -, h⟩)
          · exact .inl h
          · exact .inr h
        · rintro (h | h)
          · exact .inl h
          · exact .inr ⟨hm, hp, h⟩
      · intro hs k hk h0
        refine single_sameL W1.name o2 ?_ ?_ (s1 hs k hk)
        · rintro q ⟨l, hl, rfl⟩
          exact ((W1.all hm).2.2 l hl).nodir
        · intro l hl
          refine ⟨r1.file _ ⟨hs, k, l, hk, hl, rfl⟩, ?_⟩
          rintro ⟨l', hl', e⟩
          exact h0 hm (outPath_inj hl hl' e).1
    · have hs : rs.subs = [] := by
        by_contra hne
        exact hp (H.any.2 hne)
      refine ⟨d1, by rw [none_written hs]; rfl, rewritten_trans r1 (rewritten_refl r1.wf (new := fun _ => False) (fun _ h => h)) ?_,
        ⟨fun _ h => absurd h hp, fun _ k hk => absurd ⟨k, hk⟩ hp⟩⟩
      intro q
      constructor
      · rintro (h | ⟨-, h, -⟩)
        · exact .inl h
        · exact absurd h hp
      · rintro (h | h)
        · exact .inl h
        · exact h.elim
  · rw [if_neg (fun h => hm ((outAll_iff mode).1 h))]
    refine ⟨d1, rfl, rewritten_trans r1 (rewritten_refl r1.wf (new := fun _ => False) (fun _ h => h)) ?_, ⟨fun h => absurd h hm, fun hs k hk _ => s1 hs k hk⟩⟩
    intro q
    constructor
    · rintro (h | ⟨h, -⟩)
      · exact .inl h
      · exact absurd h hm
    · rintro (h | h)
      · exact .inl h
      · exact h.elim


end App
end CCGL
