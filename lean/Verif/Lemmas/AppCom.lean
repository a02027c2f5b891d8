import Verif.Spec.AppCom
import Verif.Props.AppRunAll
/-!
# Lemmas for the mode COM of `mask_rasterio`
-/
namespace CCGL
namespace App
open Fs Disk Main Raster Disk.Spec App.Spec

theorem before_irrefl (a : Int × Int) : ¬ Before a a := by rintro (h | ⟨-, h⟩) <;> omega

theorem before_asymm {a b : Int × Int} (h : Before a b) : ¬ Before b a := by
  unfold Before at *
  omega

theorem before_of_idx {C : Int} {a b : Int × Int} (ha : 0 ≤ a.2) (ha' : a.2 < C) (hb : 0 ≤ b.2) (hb' : b.2 < C)
    (h : a.1 * C + a.2 < b.1 * C + b.2) : Before a b := by
  by_cases h1 : a.1 < b.1
  · exact .inl h1
  · by_cases h2 : a.1 = b.1
    · exact .inr ⟨h2, by rw [h2] at h; omega⟩
    · exfalso
      have : b.1 + 1 ≤ a.1 := by omega
      have : (b.1 + 1) * C ≤ a.1 * C := mul_le_mul_of_nonneg_right this (by omega)
      rw [add_mul, one_mul] at this
      omega

theorem sorted_before {C : Int} {l : List (Int × Int)} (hl : ∀ a ∈ l, 0 ≤ a.2 ∧ a.2 < C)
    (hs : (l.map (fun a => a.1 * C + a.2)).Pairwise (· < ·)) : l.Pairwise Before := by
  rw [List.pairwise_map] at hs
  exact hs.imp_of_mem (fun {a b} ha hb h => before_of_idx (hl a ha).1 (hl a ha).2 (hl b hb).1 (hl b hb).2 h)

theorem before_unique {l l' : List (Int × Int)} (h : l.Pairwise Before) (h' : l'.Pairwise Before) (hm : ∀ a, a ∈ l ↔ a ∈ l') : l = l' := by
  haveI : Std.Irrefl Before := ⟨before_irrefl⟩
  haveI : Std.Antisymm Before := ⟨fun a b h1 h2 => absurd h2 (before_asymm h1)⟩
  exact List.Pairwise.eq_of_mem_iff h h' hm

/-- Listing the cells and the values: `Fills` says that the lists have the same length. -/
theorem fills_list {h : Header} {v : Int → Int → ℚ} {c : Int → Int → Prop} {w : Int → Int → ℚ} (H : Fills h v c w) {cs vs : List (Int × Int)}
    (hcs : cs.Pairwise Before) (hvs : vs.Pairwise Before) (hc : ∀ a, a ∈ cs ↔ c a.1 a.2) (hv : ∀ a, a ∈ vs ↔ HasValue h v a.1 a.2) :
    vs.length = cs.length ∧ vs.map (fun a => v a.1 a.2) = cs.map (fun a => w a.1 a.2) := by
  obtain ⟨f, h1, h2, h3⟩ := H
  have he : cs.map f = vs := by
    apply before_unique _ hvs
    · intro a
      rw [List.mem_map, hv]
      constructor
      · rintro ⟨x, hx, rfl⟩
        exact (h1 x ((hc x).1 hx)).1
      · intro ha
        obtain ⟨x, hx, e⟩ := h2 a ha
        exact ⟨x, (hc x).2 hx, e⟩
    · rw [List.pairwise_map]
      exact hcs.imp_of_mem (fun {a b} ha hb h => h3 a b ((hc a).1 ha) ((hc b).1 hb) h)
  rw [← he]
  refine ⟨by rw [List.length_map], ?_⟩
  rw [List.map_map]
  apply List.map_congr_left
  intro a ha
  exact (h1 a ((hc a).1 ha)).2.symm

/-- And conversely. -/
theorem list_fills {h : Header} {v : Int → Int → ℚ} {c : Int → Int → Prop} {cs vs : List (Int × Int)}
    (hcs : cs.Pairwise Before) (hvs : vs.Pairwise Before) (hc : ∀ a, a ∈ cs ↔ c a.1 a.2) (hv : ∀ a, a ∈ vs ↔ HasValue h v a.1 a.2)
    (hl : vs.length = cs.length) : ∃ w, Fills h v c w := by
  have hget : ∀ i (hi : i < vs.length), vs.getD i (0, 0) = vs[i] := fun i hi => List.getD_eq_getElem _ _ hi
  let f : Int × Int → Int × Int := fun a => vs.getD (cs.idxOf a) (0, 0)
  have hidx : ∀ a ∈ cs, cs.idxOf a < vs.length := fun a ha => by rw [hl]; exact List.idxOf_lt_length_iff.2 ha
  have hnd : cs.Nodup := hcs.imp (fun {a b} h => by rintro rfl; exact before_irrefl _ h)
  refine ⟨fun row col => v (f (row, col)).1 (f (row, col)).2, f, ?_, ?_, ?_⟩
  · intro a ha
    refine ⟨?_, rfl⟩
    rw [← hv]
    have := hidx a ((hc a).2 ha)
    show vs.getD (cs.idxOf a) (0, 0) ∈ vs
    rw [hget _ this]
    exact List.getElem_mem this
  · intro b hb
    obtain ⟨i, hi, e⟩ := List.getElem_of_mem ((hv b).2 hb)
    have hi' : i < cs.length := by omega
    refine ⟨cs[i], (hc _).1 (List.getElem_mem hi'), ?_⟩
    show vs.getD (cs.idxOf cs[i]) (0, 0) = b
    rw [hnd.idxOf_getElem, hget i hi, e]
  · intro a b ha hb hab
    have ia := hidx a ((hc a).2 ha)
    have ib := hidx b ((hc b).2 hb)
    show Before (vs.getD (cs.idxOf a) (0, 0)) (vs.getD (cs.idxOf b) (0, 0))
    rw [hget _ ia, hget _ ib]
    have hlt : cs.idxOf a < cs.idxOf b := by
      by_contra hno
      rcases Nat.lt_or_ge (cs.idxOf b) (cs.idxOf a) with h | h
      · have := List.pairwise_iff_getElem.1 hcs _ _ (by omega) (by omega) h
        simp only [List.getElem_idxOf] at this
        exact before_asymm hab this
      · have e : cs.idxOf a = cs.idxOf b := by omega
        have : cs[cs.idxOf a]'(by omega) = cs[cs.idxOf b]'(by omega) := by simp only [e]
        simp only [List.getElem_idxOf] at this
        rw [this] at hab
        exact before_irrefl _ hab
    exact List.pairwise_iff_getElem.1 hvs _ _ ia ib hlt

/-- A raster file read with valid positions. -/
theorem piece_read {d : Disk} {s : Str} {h : Header} {v : Int → Int → ℚ} (H : RasterFile d s h v) :
    ∃ r, ∃ vs : List (Int × Int), readFromFile d s true NODATA = .ok (some r) ∧ vs.Pairwise Before ∧ (∀ a, a ∈ vs ↔ HasValue h v a.1 a.2) ∧
      ((vs = [] ∧ (if r.validData && !r.is2d then (r.nCells, r.raster1) else (-1, none)).1 ≤ 0) ∨
       (if r.validData && !r.is2d then (r.nCells, r.raster1) else (-1, none)) = ((vs.length : Int), some (vs.map (fun a => v a.1 a.2)))) := by
  obtain ⟨hex, h', cells, ed, hg, hn, hl, hlen, hval⟩ := file_decode H
  have hg' := hg
  unfold Header.grid at hg'
  injection hg' with g1 g2 g3 g4 g5
  have hrp := H.rows
  have hcp := H.cols
  have hfull := ofFile_full h' cells true false NODATA (by rw [g1]; omega) (by rw [g2]; omega) hlen
  have hF : (fileRaster (h', some cells) true false NODATA) = ofFile h' cells true false NODATA := rfl
  have hst : readFromFile d s true NODATA = (ofFile h' cells true false NODATA).calcNoMask >>= fun z => .ok (if 0 ≤ z.2 then some z.1 else none) := by
    unfold readFromFile
    rw [hex, ed]
    rfl
  rw [← calcNoMask_ncells (ofFile h' cells true false NODATA) (h'.rows * h'.cols) rfl] at hst
  generalize hR : ({ ofFile h' cells true false NODATA with nCells := h'.rows * h'.cols } : Raster) = R at hst hfull
  have r1 : R.hdr.rows = h'.rows := by rw [← hR]; rfl
  have r2 : R.hdr.cols = h'.cols := by rw [← hR]; rfl
  have r3 : R.noData = h'.noData := by rw [← hR]; rfl
  have r4 : R.calcPos = true := by rw [← hR]; rfl
  have r5 : R.is2d = false := by rw [← hR]; rfl
  obtain ⟨r', e1, -, -, -, e2, -, -, e3, hcase⟩ := hfull.calc
  have hck : R.calcNoMask = .ok (r', 1) := by
    unfold calcNoMask
    rw [r4, hfull.pd, e1]
    rfl
  rw [hck] at hst
  have hgetv : ∀ rc : Int × Int, 0 ≤ rc.1 → rc.1 < h'.rows → 0 ≤ rc.2 → rc.2 < h'.cols →
      (cells.map (fun v => [v])).getD (rc.1 * R.hdr.cols + rc.2).toNat [] = [v rc.1 rc.2] := by
    intro rc a b c d
    have hi := idx_range a b c d
    rw [r2, List.getD_eq_getElem _ _ (by rw [List.length_map]; omega), List.getElem_map]
    have := hval rc.1 rc.2 ⟨a, by show rc.1 < h.rows; omega, c, by show rc.2 < h.cols; omega⟩
    rw [List.getD_eq_getElem _ _ (by omega)] at this
    rw [this]
  have hmem : ∀ a, a ∈ R.validCells (cells.map (fun v => [v])) ↔ HasValue h v a.1 a.2 := by
    intro a
    unfold validCells
    rw [List.mem_filter, mem_gridCells, r1, r3]
    constructor
    · rintro ⟨⟨a1, a2, a3, a4⟩, b⟩
      rw [r2] at a4
      rw [hgetv a a1 a2 a3 a4] at b
      refine ⟨⟨a1, by show a.1 < h.rows; omega, a3, by show a.2 < h.cols; omega⟩, ?_⟩
      rw [← hn]
      simpa using b
    · rintro ⟨⟨a1, a2, a3, a4⟩, b⟩
      have a2 : a.1 < h.rows := a2
      have a4 : a.2 < h.cols := a4
      refine ⟨⟨a1, by omega, a3, by rw [r2]; omega⟩, ?_⟩
      rw [hgetv a a1 (by omega) a3 (by omega)]
      rw [← hn] at b
      simpa using b
  have hin : ∀ a ∈ R.validCells (cells.map (fun v => [v])), 0 ≤ a.1 ∧ a.1 < h'.rows ∧ 0 ≤ a.2 ∧ a.2 < h'.cols := by
    intro a ha
    obtain ⟨⟨a1, a2, a3, a4⟩, -⟩ := (hmem a).1 ha
    exact ⟨a1, by rw [g1]; exact a2, a3, by rw [g2]; exact a4⟩
  refine ⟨r', R.validCells (cells.map (fun v => [v])), hst, ?_, hmem, ?_⟩
  · exact sorted_before (C := R.hdr.cols) (fun a ha => by rw [r2]; exact (hin a ha).2.2) (validCells_sorted R _ hfull.rows_nn hfull.cols_nn)
  · rcases hcase with ⟨hv0, hE⟩ | hC
    · left
      refine ⟨hv0, ?_⟩
      split
      · rw [hE.ncells]
      · simp
    · right
      have hh := hC.holds.2.2
      rw [e2, r5] at hh
      simp only [Bool.false_eq_true, if_false] at hh
      unfold validData
      rw [e2, r5, hh.2, e3]
      simp only [Bool.not_false, Option.isSome_some, Bool.and_self, Bool.false_and, Bool.or_false, if_true, Prod.mk.injEq, true_and, Option.some.injEq]
      rw [List.map_map]
      apply List.map_congr_left
      intro a ha
      obtain ⟨a1, a2, a3, a4⟩ := hin a ha
      show (List.getD (cells.map (fun v => [v])) (a.1 * R.hdr.cols + a.2).toNat []).headD 0 = v a.1 a.2
      rw [hgetv a a1 a2 a3 a4]
      rfl

/-! ### one file -/

theorem numberOf_iff {core : Str} {k : Int} : NumberOf core k ↔ ∃ pre rest, splitDelim '_' core = pre :: rest ∧ isInt pre = (k, true) := by
  unfold NumberOf
  simp only [fields_iff, C35_isInt]

theorem names_core {fs : FS} {s core : Str} {q : Path} (h : Names fs s q core) : getCoreFileName fs s = core := by
  obtain ⟨p, dt, suf, hn, rfl, -⟩ := h
  exact getCore_full hn.wf p dt core suf hn.dir hn.core hn.suf.1 hn.suf.2.1 hn.suf.2.2

theorem names_resolve {fs : FS} {s core : Str} {q : Path} (h : Names fs s q core) : fs.resolve s = if (fs.kindOf q).isSome then some q else none := by
  obtain ⟨p, dt, suf, hn, rfl, rfl⟩ := h
  rw [List.append_assoc, resolve_full hn.wf p dt _ hn.dir (base_good core suf hn.core hn.suf.1 hn.suf.2.1 hn.suf.2.2)]

/-- The subset holds the values of the piece, or is not used. -/
def Loaded (ps : List (Int × Int)) (g : List Nat) (s : Subset) (o : Option (Int → Int → ℚ)) : Prop :=
  match o with
  | some w => s.usable = true ∧ s.nLyrs = 1 ∧ s.data = some (g.map (fun i => w (posAt ps i).1 (posAt ps i).2))
  | none => s.usable = false

/-- The subsets after some files. -/
structure ComSubs (ps : List (Int × Int)) (G : Int → List Nat) (done : List (Option (Int × (Int → Int → ℚ)))) (subs : IMap Subset) : Prop where
  part : PartsOf ps G subs
  old : ∀ k s, subs.get k = some s → ∀ l, s.data = some l → (l.length : Int) = s.nCells
  last : ∀ k s, subs.get k = some s → Loaded ps (G k) s (lastPiece done k)

theorem lastPiece_snoc (done : List (Option (Int × (Int → Int → ℚ)))) (x : Option (Int × (Int → Int → ℚ))) (k : Int) :
    lastPiece (done ++ [x]) k = match x with
      | some y => if y.1 = k then some y.2 else lastPiece done k
      | none => lastPiece done k := by
  unfold lastPiece
  rw [List.foldl_append]
  rfl

theorem ComSubs.skip {ps G done subs} (h : ComSubs ps G done subs) : ComSubs ps G (done ++ [none]) subs :=
  ⟨h.part, h.old, fun k s hk => by rw [lastPiece_snoc]; exact h.last k s hk⟩

theorem ComSubs.take {ps G done} {subs : IMap Subset} (h : ComSubs ps G done subs) {k : Int} {s : Subset} (hk : subs.get k = some s) (w : Int → Int → ℚ) :
    ComSubs ps G (done ++ [some (k, w)])
      (subs.set k { s with nLyrs := 1, usable := true, data := some ((G k).map (fun i => w (posAt ps i).1 (posAt ps i).2)) }) := by
  have hok := h.part.some k s hk
  refine ⟨⟨IMap.set_sorted _ _ _ h.part.sorted, ?_, ?_, h.part.lt, h.part.nodup, h.part.disj⟩, ?_, ?_⟩
  · intro k' s' hk'
    rw [IMap.get_set] at hk'
    by_cases e : k' = k
    · rw [if_pos e] at hk'
      injection hk' with hk'
      rw [e, ← hk']
      exact hok.same ⟨rfl, rfl, rfl, rfl, rfl, rfl, rfl, rfl⟩
    · rw [if_neg e] at hk'
      exact h.part.some k' s' hk'
  · intro k' hk'
    rw [IMap.get_set] at hk'
    by_cases e : k' = k
    · rw [if_pos e] at hk'
      cases hk'
    · rw [if_neg e] at hk'
      exact h.part.none k' hk'
  · intro k' s' hk' l hl
    rw [IMap.get_set] at hk'
    by_cases e : k' = k
    · rw [if_pos e] at hk'
      injection hk' with hk'
      rw [← hk'] at hl ⊢
      simp only [Option.some.injEq] at hl
      rw [← hl, List.length_map]
      exact hok.n.symm
    · rw [if_neg e] at hk'
      exact h.old k' s' hk' l hl
  · intro k' s' hk'
    rw [IMap.get_set] at hk'
    rw [lastPiece_snoc]
    by_cases e : k' = k
    · rw [if_pos e] at hk'
      injection hk' with hk'
      rw [← hk', e]
      simp only [if_true]
      exact ⟨rfl, rfl, rfl⟩
    · rw [if_neg e] at hk'
      dsimp only
      rw [if_neg (fun h => e h.symm)]
      exact h.last k' s' hk'

theorem group_sorted {ps : List (Int × Int)} {C : Int} (hl : ∀ a ∈ ps, 0 ≤ a.2 ∧ a.2 < C)
    (hs : (ps.map (fun a => a.1 * C + a.2)).Pairwise (· < ·)) {g : List Nat} (hlt : ∀ i ∈ g, i < ps.length) (ha : g.Pairwise (· < ·)) :
    (g.map (posAt ps)).Pairwise Before := by
  have hb := sorted_before hl hs
  rw [List.pairwise_map]
  refine ha.imp_of_mem (fun {i j} hi hj hij => ?_)
  have := List.pairwise_iff_getElem.1 hb i j (hlt i hi) (hlt j hj) hij
  unfold posAt
  rw [List.getD_eq_getElem _ _ (hlt i hi), List.getD_eq_getElem _ _ (hlt j hj)]
  exact this

/-- One file of a job. -/
theorem comOne_step {d : Disk} {g : Groups} {ps : List (Int × Int)} {G : Int → List Nat} (hsort : ∀ k, ((G k).map (posAt ps)).Pairwise Before)
    (hgrp : ∀ k row col, g k row col ↔ ∃ i ∈ G k, posAt ps i = (row, col)) {s : Str} {q : Path} {x : Option (Int × (Int → Int → ℚ))}
    (hx : Gives d g s q x) {done} {subs : IMap Subset} (h : ComSubs ps G done subs) :
    ∃ subs', comOne d subs s = .ok subs' ∧ ComSubs ps G (done ++ [x]) subs' := by
  have hpres : ∀ k, Present g k ↔ ∃ sb, subs.get k = some sb := by
    intro k
    constructor
    · rintro ⟨row, col, hc⟩
      obtain ⟨i, hi, -⟩ := (hgrp k row col).1 hc
      cases hk : subs.get k with
      | some sb => exact ⟨sb, rfl⟩
      | none =>
        rw [h.part.none k hk] at hi
        cases hi
    · rintro ⟨sb, hk⟩
      obtain ⟨i, hi⟩ := List.exists_mem_of_ne_nil _ (h.part.some k sb hk).ne
      exact ⟨_, _, (hgrp k _ _).2 ⟨i, hi, rfl⟩⟩
  have hmemc : ∀ k (a : Int × Int), a ∈ (G k).map (posAt ps) ↔ g k a.1 a.2 := by
    intro k a
    rw [hgrp, List.mem_map]
  have hbm : ∀ {c : Str} {k : Int}, isInt c = (k, true) → Int.bmod (isInt c).1 (2 ^ 32) = k := by
    intro c k hc
    have hr := ((C35_isInt c k).1 hc).2
    rw [hc]
    exact Int.bmod_eq_of_le (by omega) (by omega)
  -- a file that is read
  have hread : ∀ {core k h0 v}, Names d.fs s q core → NumberOf core k → d.fs.resolve s = some q → RasterFile d s h0 v →
      ∃ r, readFromFile d s true NODATA = .ok (some r) ∧ ∀ sb, subs.get k = some sb →
        comOne d subs s = comFile subs (k, if r.validData && !r.is2d then (r.nCells, r.raster1) else (-1, none)) := by
    intro core k h0 v hN hk hres hf
    obtain ⟨pre, rest, e1, e2⟩ := numberOf_iff.1 hk
    obtain ⟨r, vs, er, -⟩ := piece_read hf
    refine ⟨r, er, fun sb hsb => ?_⟩
    have hex : fileExists d.fs s = true := by unfold fileExists; rw [hres]; rfl
    unfold comOne
    rw [names_core hN, e1]
    dsimp only
    rw [hbm e2, e2, hsb, hex, er]
    rfl
  have hskip : ∀ {core k}, Names d.fs s q core → NumberOf core k → subs.get k = none → comOne d subs s = .ok subs := by
    intro core k hN hk hsb
    obtain ⟨pre, rest, e1, e2⟩ := numberOf_iff.1 hk
    unfold comOne
    rw [names_core hN, e1]
    dsimp only
    rw [hbm e2, e2, hsb]
    rfl
  have hnoread : ∀ {core}, Names d.fs s q core → (fileExists d.fs s = false ∨ readFromFile d s true NODATA = .ok none) → comOne d subs s = .ok subs := by
    intro core hN hno
    unfold comOne
    cases hsp : splitDelim '_' (getCoreFileName d.fs s) with
    | nil => rfl
    | cons c rest =>
      dsimp only
      by_cases h1 : (!(isInt c).2) = true
      · rw [if_pos h1]
      · rw [if_neg h1]
        by_cases h2 : (subs.get (Int.bmod (isInt c).1 (2 ^ 32))).isNone = true
        · rw [if_pos h2]
        · rw [if_neg h2]
          rcases hno with hno | hno
          · rw [if_pos (by rw [hno]; rfl)]
          · by_cases h3 : (!fileExists d.fs s) = true
            · rw [if_pos h3]
            · rw [if_neg h3, hno]
              rfl
  cases hx with
  | @piece core k h0 v w hN hk hp hres hf hfill =>
    obtain ⟨sb, hsb⟩ := (hpres k).1 hp
    obtain ⟨r, er, hco⟩ := hread hN hk hres hf
    obtain ⟨r2, vs, er2, hvs, hmv, hcase⟩ := piece_read hf
    rw [er] at er2
    injection er2 with er2
    injection er2 with er2
    subst er2
    obtain ⟨hl, hm⟩ := fills_list hfill (hsort k) hvs (hmemc k) hmv
    have hok := h.part.some k sb hsb
    have hpos : 0 < (G k).length := List.length_pos_of_ne_nil hok.ne
    rw [List.length_map] at hl
    rw [hco sb hsb]
    rcases hcase with ⟨h0, -⟩ | hc
    · rw [h0] at hl
      simp only [List.length_nil] at hl
      omega
    · rw [hc]
      unfold comFile
      dsimp only
      rw [hsb]
      dsimp only
      have hn : (vs.length : Int) = sb.nCells := by rw [hok.n, hl]
      rw [hn, setData_fit (by rw [List.length_map]; exact hn) (by rw [hok.n]; omega) (fun old ho => h.old k sb hsb old ho)]
      refine ⟨_, rfl, ?_⟩
      rw [hm, List.map_map]
      exact h.take hsb w
  | @unnumbered core hN hno =>
    refine ⟨subs, ?_, h.skip⟩
    unfold comOne
    rw [names_core hN]
    cases hsp : splitDelim '_' core with
    | nil => rfl
    | cons c rest =>
      dsimp only
      have : (isInt c).2 = false := by
        by_contra hb
        have hb : (isInt c).2 = true := by simpa using hb
        exact hno (isInt c).1 (numberOf_iff.2 ⟨c, rest, hsp, by rw [← hb]⟩)
      rw [this]
      rfl
  | @nogroup core k hN hk hno =>
    refine ⟨subs, hskip hN hk ?_, h.skip⟩
    cases hsb : subs.get k with
    | none => rfl
    | some sb => exact absurd ((hpres k).2 ⟨sb, hsb⟩) hno
  | @missing core hN hno =>
    refine ⟨subs, hnoread hN (.inl ?_), h.skip⟩
    unfold fileExists
    rw [names_resolve hN, hno]
    rfl
  | @refused core hN hres hno => exact ⟨subs, hnoread hN (.inr (hno true NODATA)), h.skip⟩
  | @unfit core k h0 v hN hk hres hf hno =>
    cases hsb : subs.get k with
    | none => exact ⟨subs, hskip hN hk hsb, h.skip⟩
    | some sb =>
      obtain ⟨r, er, hco⟩ := hread hN hk hres hf
      obtain ⟨r2, vs, er2, hvs, hmv, hcase⟩ := piece_read hf
      rw [er] at er2
      injection er2 with er2
      injection er2 with er2
      subst er2
      have hok := h.part.some k sb hsb
      have hpos : 0 < (G k).length := List.length_pos_of_ne_nil hok.ne
      have hne : (if r.validData && !r.is2d then (r.nCells, r.raster1) else (-1, none)).1 ≠ sb.nCells := by
        rw [hok.n]
        rcases hcase with ⟨-, h0⟩ | hc
        · omega
        · rw [hc]
          dsimp only
          intro he
          obtain ⟨w, hw⟩ := list_fills (hsort k) hvs (hmemc k) hmv (by rw [List.length_map]; omega)
          exact hno w hw
      have hset : sb.setData (if r.validData && !r.is2d then (r.nCells, r.raster1) else (-1, none)).1
          (if r.validData && !r.is2d then (r.nCells, r.raster1) else (-1, none)).2 = .ok (sb, false) := by
        unfold Subset.setData
        rw [if_pos hne]
      refine ⟨subs.set k sb, ?_, ?_⟩
      · rw [hco sb hsb]
        unfold comFile
        dsimp only
        rw [hsb]
        dsimp only
        rw [hset]
        rfl
      · have hget : ∀ k' s', (subs.set k sb).get k' = some s' → subs.get k' = some s' := by
          intro k' s' hk'
          rw [IMap.get_set] at hk'
          by_cases e : k' = k
          · rw [if_pos e] at hk'
            rw [e, hsb]
            exact hk'
          · rwa [if_neg e] at hk'
        refine ComSubs.skip ⟨⟨IMap.set_sorted _ _ _ h.part.sorted, fun k' s' hk' => h.part.some k' s' (hget _ _ hk'), ?_, h.part.lt, h.part.nodup, h.part.disj⟩,
          fun k' s' hk' => h.old k' s' (hget _ _ hk'), fun k' s' hk' => h.last k' s' (hget _ _ hk')⟩
        intro k' hk'
        rw [IMap.get_set] at hk'
        by_cases e : k' = k
        · rw [if_pos e] at hk'; cases hk'
        · rw [if_neg e] at hk'; exact h.part.none k' hk'

/-- All files of a job. -/
theorem comOne_all {d : Disk} {g : Groups} {ps : List (Int × Int)} {G : Int → List Nat} (hsort : ∀ k, ((G k).map (posAt ps)).Pairwise Before)
    (hgrp : ∀ k row col, g k row col ↔ ∃ i ∈ G k, posAt ps i = (row, col)) :
    ∀ (ins : List (Str × Path × Option (Int × (Int → Int → ℚ)))) (done) (subs : IMap Subset), (∀ x ∈ ins, Gives d g x.1 x.2.1 x.2.2) →
      ComSubs ps G done subs → ∃ subs', (ins.map (·.1)).foldlM (comOne d) subs = .ok subs' ∧ ComSubs ps G (done ++ ins.map (fun x => x.2.2)) subs' := by
  intro ins
  induction ins with
  | nil => intro done subs _ h; exact ⟨subs, rfl, by simpa using h⟩
  | cons x ins ih =>
    intro done subs hg h
    obtain ⟨s1, e1, h1⟩ := comOne_step hsort hgrp (hg x List.mem_cons_self) h
    obtain ⟨s2, e2, h2⟩ := ih _ _ (fun y hy => hg y (List.mem_cons_of_mem _ hy)) h1
    refine ⟨s2, ?_, by simpa using h2⟩
    rw [List.map_cons, List.foldlM_cons, e1]
    exact e2

/-- The mask object between the jobs. -/
structure ComMask (m : RasterS) (hM : Header) (vM : Int → Int → ℚ) : Prop where
  grid : m.ras.hdr.grid = hM.grid
  nd : m.ras.noData = hM.noData
  hnd : m.ras.hdr.noData = hM.noData
  cut : ∃ ls ps G, m.ras.Compact ls ps ∧ PartsOf ps G m.subs ∧ (∀ k, (G k).Pairwise (· < ·)) ∧
    ∀ k row col, byValue hM vM k row col ↔ ∃ i ∈ G k, posAt ps i = (row, col)
  old : ∀ k s, m.subs.get k = some s → ∀ l, s.data = some l → (l.length : Int) = s.nCells

theorem CutMask.comMask {m hM vM} (h : CutMask m hM vM) : ComMask m hM vM := by
  obtain ⟨ls, ps, G, hc⟩ := h.cut
  refine ⟨h.grid, h.nd, by rw [h.built.hdrOk.nd, h.nd], ⟨ls, ps, G, hc.comp, hc.part, hc.asc, ?_⟩, ?_⟩
  · intro k row col
    rw [h.grp]
    constructor
    · rintro ⟨s, hs, hi⟩
      exact ((hc.part.some k s hs).in_iff row col).1 hi
    · rintro ⟨i, hi, hp⟩
      cases hk : m.subs.get k with
      | none => rw [hc.part.none k hk] at hi; cases hi
      | some s => exact ⟨s, rfl, ((hc.part.some k s hk).in_iff row col).2 ⟨i, hi, hp⟩⟩
  · intro k s hs l hl
    have := (h.bare _ (IMap.get_mem hs)).2.1
    rw [this] at hl
    cases hl

end App
end CCGL
