import Verif.Spec.GfsSubset
import Verif.Props.SubsetData
import Verif.Props.GfsRaster
import Verif.Props.Num
/-!
# Lemmas for subsets in GridFS
-/
namespace CCGL
namespace Gfs
open Spec Gtiff Raster

/-- The number of cells stored for a subset. -/
def storedCells (s : Subset) (inc : Bool) : Int := if inc then (s.erow - s.srow + 1) * (s.ecol - s.scol + 1) else s.nCells

theorem valid_range {r : Raster} {row col : Int} {v : ℚ} (h : ValidCell r row col v) :
    0 ≤ row ∧ row < r.hdr.rows ∧ 0 ≤ col ∧ col < r.hdr.cols := by
  by_contra hc
  have := getValue_outside r row col 1 (.inl hc)
  rw [h.1] at this
  injection this with this
  have h2 := h.2
  rw [this, floatEqual_self] at h2
  cases h2

/-- Taking the values of one subset out of the raster and loading them back. -/
theorem store_one {r : Raster} (hb : Built r) (groups : IMap Int) {rs' b} (e : buildSubSet ⟨r, []⟩ groups = .ok (rs', b))
    (h2 : r.is2d = true → 1 < r.nLyrs) (inc : Bool) (dv : ℚ) {k : Int} {s : Subset} (hk : rs'.subs.get k = some s) :
    s.usable = true ∧ 1 ≤ r.nLyrs ∧ ∃ d s', prepareSubsetData rs'.ras k s true inc [] dv =
        .ok (some (some d, storedCells s inc * r.nLyrs, r.nLyrs)) ∧
      (d.length : Int) = storedCells s inc * r.nLyrs ∧
      (∀ v ∈ d, v = r.noData ∨ ∃ row col lyr, 0 ≤ row ∧ row < r.hdr.rows ∧ 0 ≤ col ∧ col < r.hdr.cols ∧ 1 ≤ lyr ∧ lyr ≤ r.nLyrs ∧
        r.getValue row col lyr = .ok v) ∧
      s.readDb (storedCells s inc) r.nLyrs (some d) = .ok (s', true) ∧ SameCells s s' ∧ s'.usable = true ∧ s'.nLyrs = r.nLyrs ∧
      ∀ (j : Nat) (l lr lc : Int), readAt s.localPos j = .ok (lr, lc) → 0 ≤ l → l < r.nLyrs →
        subsetCell s' r.nLyrs j l = r.getValue (s.srow + lr) (s.scol + lc) (l + 1) := by
  obtain ⟨hrw, hcl, hnd, hny, h2d, hdf, hv, ⟨ls, ps, hC, hok⟩ | hn⟩ := build_cases2 hb e
  · obtain ⟨hiff, -⟩ := build_cases hb e
    obtain ⟨ho, hfr⟩ := hok.some k s hk
    obtain ⟨d, e1, e2, e3, e4⟩ := decomp_core hC (by rw [h2d, hny]; exact h2) ho (fun i hi => groupCells_lt hi)
      (groupCells_sorted rs'.ras ls ps groups k) k inc dv
    have hL := hC.holds.1
    obtain ⟨s', f1, f2, f3, f4, f5⟩ := load_core hC ho (fun i hi => groupCells_lt hi)
      (groupCells_sorted rs'.ras ls ps groups k) hfr inc rs'.ras.nLyrs hL d e2
      (fun j l => cellAt ls ((groupCells rs'.ras ls ps groups k).getD j 0) l.toNat) (by
        intro j hj l h0 h1
        rw [e3 j hj l h0 h1]
        rw [show (groupCells rs'.ras ls ps groups k).getD j 0 = (groupCells rs'.ras ls ps groups k)[j] from
          List.getD_eq_getElem _ _ hj]
        rfl)
    have hN : storedCells s inc = if inc then (s.erow - s.srow + 1) * (s.ecol - s.scol + 1) else s.nCells := rfl
    rw [← hN] at e1 e2 e4 f1
    rw [hny] at e1 e2 e3 e4 f1 f4 f5 hL
    refine ⟨hfr.1, hL, d, s', e1, e2, ?_, f1, f2, f3, f4, ?_⟩
    · intro v hvm
      obtain ⟨i, hi, rfl⟩ := List.getElem_of_mem hvm
      have hiN : (i : Int) < storedCells s inc * r.nLyrs := by rw [← e2]; exact_mod_cast hi
      have a1 : (i : Int) / r.nLyrs < storedCells s inc := Int.ediv_lt_of_lt_mul (by omega) hiN
      have a0 : 0 ≤ (i : Int) / r.nLyrs := Int.ediv_nonneg (by omega) (by omega)
      have d0 := Int.emod_nonneg (i : Int) (by omega : r.nLyrs ≠ 0)
      have d1 := Int.emod_lt_of_pos (i : Int) (by omega : 0 < r.nLyrs)
      have hread : readAt (some d) ((i : Int) / r.nLyrs * r.nLyrs + (i : Int) % r.nLyrs) = .ok d[i] := by
        rw [Int.ediv_mul_add_emod, readAt_some_nat _ i hi]
      by_cases hj : ∃ j, ∃ hj : j < (groupCells rs'.ras ls ps groups k).length,
          (if inc then localOf ps s (groupCells rs'.ras ls ps groups k)[j] else (j : Int)) = (i : Int) / r.nLyrs
      · obtain ⟨j, hj, he⟩ := hj
        right
        have e3' : readAt (some d) ((if inc then localOf ps s (groupCells rs'.ras ls ps groups k)[j] else (j : Int)) * r.nLyrs +
            (i : Int) % r.nLyrs) = .ok (cellAt ls (groupCells rs'.ras ls ps groups k)[j] ((i : Int) % r.nLyrs).toNat) := e3 j hj _ d0 d1
        rw [he, hread] at e3'
        have hm : (groupCells rs'.ras ls ps groups k)[j] ∈ groupCells rs'.ras ls ps groups k := List.getElem_mem hj
        have hcv := compact_cell hC _ (groupCells_lt hm) _ d0 (by rw [hny]; exact d1)
        have hval := (hiff _ _ _).2 (group_valid hC hm)
        obtain ⟨p1, p2, p3, p4⟩ := valid_range hval
        exact ⟨_, _, (i : Int) % r.nLyrs + 1, p1, p2, p3, p4, by omega, by omega, by rw [← hv _ _ _ _ hval, hcv, ← e3']⟩
      · left
        have := e4 _ _ a0 a1 d0 d1 (fun j hj' he => hj ⟨j, hj', he⟩)
        rw [hread, hnd] at this
        injection this
    · intro j l lr lc hj h0 h1
      rw [ho.lpos] at hj
      by_cases hjl : j < (groupCells rs'.ras ls ps groups k).length
      · rw [readAt_some_nat _ j (by simpa [groupCells] using hjl)] at hj
        injection hj with hj
        simp only [List.getElem_map, Prod.mk.injEq] at hj
        have hm : (groupCells rs'.ras ls ps groups k)[j] ∈ groupCells rs'.ras ls ps groups k := List.getElem_mem hjl
        have hcv := compact_cell hC _ (groupCells_lt hm) l h0 (by rw [hny]; exact h1)
        have hval := group_valid hC hm
        rw [f5 j l hjl h0 h1]
        rw [show (groupCells rs'.ras ls ps groups k).getD j 0 = (groupCells rs'.ras ls ps groups k)[j] from
          List.getD_eq_getElem _ _ hjl]
        have q1 : s.srow + lr = (posAt ps (groupCells rs'.ras ls ps groups k)[j]).1 := by
          rw [← hj.1]; simp only [groupCells]; omega
        have q2 : s.scol + lc = (posAt ps (groupCells rs'.ras ls ps groups k)[j]).2 := by
          rw [← hj.2]; simp only [groupCells]; omega
        rw [q1, q2, ← hv _ _ (l + 1) _ ((hiff _ _ _).2 hval), hcv]
      · rw [readAt_oob _ _ (.inr (by rw [List.length_map]; unfold groupCells at hjl; omega))] at hj
        simp at hj
  · rw [hn] at hk; simp [IMap.get_nil] at hk

theorem subFile_inj {i j : Int} {name : Str} (h : subFile i name = subFile j name) : i = j := by
  unfold subFile at h
  exact intToDec_inj (List.append_cancel_right h)

theorem subFile_eq (k : Int) (name : Str) : subFile k name = subsetFile k name := by
  unfold subFile subsetFile; simp

theorem apart_name {K L : Key} (h : K.name ≠ L.name) : Apart K L := .inl h

/-- One file is written: what the bucket holds afterwards. -/
theorem write_step {rnd : ℚ → ℚ} (hrnd : ∀ v, Representable .float v → rnd v = v) {T O : RDT} {rm : Nat → Bool} {att : Nat → Attempt}
    (st : Store) {name : Str} {h : Header} {cells : List ℚ} {opts : Opts} {ty : Str} (hg : GoodKey ⟨name, withType T opts⟩)
    (hs : StorableHeader h) (hty : (kTypeOut, ty) ∈ withType T opts) (hO : stringToRdt ty = O) (hTO : StorableAs T O)
    (hr : ∀ v ∈ cells, Representable T v ∧ Representable O v) (hrm : ∀ i, rm i = true) (hatt : ∀ i, CleanAttempt (att i)) :
    ∃ st1 ok n info, writeGridfs rnd T rm att st name (headerMap h) (some cells) cells.length opts = .ok (st1, ok, n) ∧
      (ok = true ↔ ∃ i, i < 4 ∧ (att i).reported = true) ∧
      HeaderIs (info.foldl readElem (initialHeader, initialStr)).1 h ∧
      (∀ k v, (k, v) ∈ withType T opts → ∃ out, (info.foldl readElem (initialHeader, initialStr)).2 k = some out ∧ SameMeaning v out ∧
        ((∀ x, ¬ NumText v x) → out = v)) ∧
      (∀ R : Key, R.name ≠ name → filesOf st1 R = filesOf st R) ∧
      (∀ R : Key, R.name = name → (∀ k v, (k, v) ∈ R.opts → (k, v) ∈ withType T opts) →
        (∀ f ∈ st, Has f R → Has f ⟨name, withType T opts⟩) →
        filesOf st1 R = if ok then [File.mk name info (cells.flatMap (encode O))] else []) := by
  obtain ⟨flt, info, hf, hw, hhas, hhdr, hopts⟩ := write_ok (rm := rm) (att := att) (st := st) hrnd hg hs hty hO hTO hr
  obtain ⟨new, g1, g2, _, g3, g4, g5⟩ := writeLoop_spec att name (cells.flatMap (encode O)) info 4 0 (removeLoop rm flt 0 st)
  generalize writeLoop att name (cells.flatMap (encode O)) info 0 4 (removeLoop rm flt 0 st) = W at hw g1 g3 g4 g5
  obtain ⟨st', okW, nW⟩ := W
  dsimp only at g1 g3 g4 g5
  have g5 := g5 hatt
  rw [cstr_of_no_nul _ hg.name] at g2 g5
  refine ⟨st', okW, nW, info, hw, ?_, hhdr, hopts, ?_, ?_⟩
  · rw [g4]
    constructor
    · rintro ⟨i, _, a, b⟩; exact ⟨i, by omega, b⟩
    · rintro ⟨i, a, b⟩; exact ⟨i, by omega, by omega, b⟩
  · intro R hR
    rw [g1, filesOf_append, filesOf_removed_apart hf (apart_name (fun h => hR h.symm)),
      filesOf_nil_of (st := new) (fun f hf' hh => hR (hh.1 ▸ (g2 f hf').1)), List.append_nil]
  · intro R hRn hRo hRst
    have hfR : Has (File.mk name info (cells.flatMap (encode O))) R := by
      obtain ⟨a, b⟩ := hhas (cells.flatMap (encode O))
      exact ⟨hRn.symm, fun k v hkv => b k v (hRo k v hkv)⟩
    have h0 : filesOf (removeLoop rm flt 0 st) R = [] := by
      apply filesOf_nil_of
      intro f hfm hfh
      have h1 := (removeLoop_sublist rm flt 0 st).mem hfm
      have h2 := hRst f h1 hfh
      rw [removeLoop_all rm flt hrm, List.mem_filter, (hf f).2 h2] at hfm
      simp at hfm
    rw [g1, filesOf_append, h0, List.nil_append, g5]
    cases okW
    · rfl
    · rw [if_pos rfl, filesOf_single hfR]

theorem mem_filesOf {st : Store} {K : Key} {f : File} : f ∈ filesOf st K ↔ f ∈ st ∧ Has f K := by
  unfold filesOf
  rw [List.mem_filter]
  simp

/-- After a failed write no subset is written any more. -/
theorem loop_false {rnd : ℚ → ℚ} {T : RDT} {rms : Nat → Nat → Bool} {atts : Nat → Nat → Attempt} {r : Raster} {name : Str} {o : Opts}
    {outOrigin inc : Bool} {recls : IMap (List ℚ)} {dv : ℚ} : ∀ (l : IMap Subset) (i : Nat) (st : Store),
    (∀ e ∈ l, ∃ x, subPayload T r e.1 e.2 outOrigin inc recls dv = .ok x) →
    outSubLoop rnd T rms atts r name o outOrigin inc recls dv i false l st = .ok (st, false)
  | [], i, st, _ => by rw [outSubLoop]
  | e :: l, i, st, hp => by
    rw [outSubLoop, loop_false l (i + 1) st (fun e he => hp e (List.mem_cons_of_mem _ he))]
    cases e.2.usable with
    | false => rfl
    | true =>
      obtain ⟨x, hx⟩ := hp e List.mem_cons_self
      simp only [Bool.not_true, Bool.false_eq_true, if_false]
      rw [hx, Out.ok_bind]
      cases x <;> rfl

/-- What the loop over the subsets leaves in the bucket. -/
theorem loop_true {rnd : ℚ → ℚ} (hrnd : ∀ v, Representable .float v → rnd v = v) {T O : RDT} {rms : Nat → Nat → Bool}
    {atts : Nat → Nat → Attempt} {r : Raster} {name : Str} {o : Opts} {ty : Str} {inc : Bool} {recls : IMap (List ℚ)} {dv : ℚ}
    (hgood : ∀ k, GoodKey ⟨subFile k name, o⟩) (hwt : withType T o = o) (hty : (kTypeOut, ty) ∈ o) (hO : stringToRdt ty = O)
    (hTO : StorableAs T O) (hrm : ∀ i j, rms i j = true) (hatt : ∀ i j, CleanAttempt (atts i j)) :
    ∀ (l : IMap Subset) (i : Nat) (st : Store), (l.map (·.1)).Pairwise (· < ·) →
    (∀ e ∈ l, e.2.usable = true ∧ ∃ h d, subPayload T r e.1 e.2 true inc recls dv = .ok (some (h, some d, (d.length : Int))) ∧
      StorableHeader h ∧ ∀ v ∈ d, Representable T v ∧ Representable O v) →
    ∃ st' fl, outSubLoop rnd T rms atts r name o true inc recls dv i true l st = .ok (st', fl) ∧
      (∀ R : Key, (∀ e ∈ l, R.name ≠ subFile e.1 name) → filesOf st' R = filesOf st R) ∧
      (∀ n (hn : n < l.length) (R : Key), R.name = subFile l[n].1 name → (∀ k v, (k, v) ∈ R.opts → (k, v) ∈ o) →
        (∀ f ∈ st, Has f R → Has f ⟨R.name, o⟩) →
        ((∀ m, m ≤ n → Written atts (i + m)) → ∀ h d, subPayload T r l[n].1 l[n].2 true inc recls dv = .ok (some (h, some d, (d.length : Int))) →
          ∃ info, HeaderIs (info.foldl readElem (initialHeader, initialStr)).1 h ∧
            (∀ k v, (k, v) ∈ o → ∃ out, (info.foldl readElem (initialHeader, initialStr)).2 k = some out ∧ SameMeaning v out ∧
              ((∀ x, ¬ NumText v x) → out = v)) ∧
            filesOf st' R = [File.mk R.name info (d.flatMap (encode O))]) ∧
        ((∀ m, m < n → Written atts (i + m)) → ¬ Written atts (i + n) → filesOf st' R = []) ∧
        ((∃ m, m < n ∧ ¬ Written atts (i + m)) → filesOf st' R = filesOf st R))
  | [], i, st, _, _ => ⟨st, true, by rw [outSubLoop], fun _ _ => rfl, fun n hn => absurd hn (by simp)⟩
  | e :: l, i, st, hs, hp => by
    obtain ⟨hu, h, d, hx, hsh, hrep⟩ := hp e List.mem_cons_self
    obtain ⟨st1, ok, cnt, info, w1, w2, w3, w4, w5, w6⟩ := write_step (rm := rms i) (att := atts i) hrnd st (name := subFile e.1 name) (h := h)
      (cells := d) (opts := o) (ty := ty) (by rw [hwt]; exact hgood _) hsh (by rw [hwt]; exact hty) hO hTO hrep (hrm i) (hatt i)
    rw [hwt] at w4 w6
    have hs' : (l.map (·.1)).Pairwise (· < ·) := by
      rw [List.map_cons, List.pairwise_cons] at hs; exact hs.2
    have hne : ∀ x ∈ l, subFile x.1 name ≠ subFile e.1 name := by
      intro x hx he
      rw [List.map_cons, List.pairwise_cons] at hs
      have := hs.1 x.1 (List.mem_map.2 ⟨x, hx, rfl⟩)
      have := subFile_inj he
      omega
    have hunf : outSubLoop rnd T rms atts r name o true inc recls dv i true (e :: l) st =
        outSubLoop rnd T rms atts r name o true inc recls dv (i + 1) ok l st1 := by
      rw [outSubLoop, hu, hx]
      simp only [Bool.not_true, Bool.false_eq_true, if_false, Out.ok_bind, if_true]
      rw [w1, Out.ok_bind]
    -- the file of the first subset
    have first : ∀ (st' : Store), (∀ R : Key, (∀ e ∈ l, R.name ≠ subFile e.1 name) → filesOf st' R = filesOf st1 R) →
        ∀ R : Key, R.name = subFile e.1 name → (∀ k v, (k, v) ∈ R.opts → (k, v) ∈ o) → (∀ f ∈ st, Has f R → Has f ⟨R.name, o⟩) →
        filesOf st' R = if ok then [File.mk R.name info (d.flatMap (encode O))] else [] := by
      intro st' hfr R hRn hRo hRst
      rw [hfr R (fun x hx => by rw [hRn]; exact fun h => hne x hx h.symm), w6 R hRn hRo (by rw [← hRn]; exact hRst), hRn]
    have uniq : ∀ h' d', subPayload T r e.1 e.2 true inc recls dv = .ok (some (h', some d', (d'.length : Int))) → h' = h ∧ d' = d := by
      intro h' d' hx'
      rw [hx] at hx'
      injection hx' with hx'
      injection hx' with hx'
      injection hx' with ha hb
      injection hb with hb _
      injection hb with hb
      exact ⟨ha.symm, hb.symm⟩
    cases ok with
    | false =>
      have hfail : ¬ Written atts i := fun hw => by simpa using w2.2 hw
      have hl := loop_false (rnd := rnd) (T := T) (rms := rms) (atts := atts) (r := r) (name := name) (o := o) (outOrigin := true) (inc := inc)
        (recls := recls) (dv := dv) l (i + 1) st1 (fun x hx => by
          obtain ⟨_, h, d, hx, _⟩ := hp x (List.mem_cons_of_mem _ hx)
          exact ⟨_, hx⟩)
      refine ⟨st1, false, by rw [hunf, hl], ?_, ?_⟩
      · intro R hR
        exact w5 R (hR e List.mem_cons_self)
      · intro n hn R hRn hRo hRst
        cases n with
        | zero =>
          refine ⟨fun hw => absurd (hw 0 (le_refl _)) hfail, fun _ _ => ?_, fun hex => ?_⟩
          · have := first st1 (fun _ _ => rfl) R hRn hRo hRst
            simpa using this
          · obtain ⟨m, hm, _⟩ := hex; omega
        | succ n =>
          refine ⟨fun hw => absurd (hw 0 (by omega)) hfail, fun hw => absurd (hw 0 (by omega)) hfail, fun _ => ?_⟩
          rw [List.getElem_cons_succ] at hRn
          exact w5 R (by rw [hRn]; exact hne _ (List.getElem_mem _))
    | true =>
      have hwr : Written atts i := w2.1 rfl
      obtain ⟨st', fl, l1, l2, l3⟩ := loop_true hrnd hgood hwt hty hO hTO hrm hatt l (i + 1) st1 hs'
        (fun x hx => hp x (List.mem_cons_of_mem _ hx))
      refine ⟨st', fl, by rw [hunf, l1], ?_, ?_⟩
      · intro R hR
        rw [l2 R (fun x hx => hR x (List.mem_cons_of_mem _ hx)), w5 R (hR e List.mem_cons_self)]
      · intro n hn R hRn hRo hRst
        cases n with
        | zero =>
          refine ⟨fun _ h' d' hx' => ?_, fun _ hnw => absurd hwr hnw, fun hex => ?_⟩
          · obtain ⟨rfl, rfl⟩ := uniq h' d' hx'
            refine ⟨info, w3, w4, ?_⟩
            have := first st' l2 R hRn hRo hRst
            simpa using this
          · obtain ⟨m, hm, _⟩ := hex; omega
        | succ n =>
          rw [List.getElem_cons_succ] at hRn
          have hn' : n < l.length := by simpa using hn
          have hR1 : R.name ≠ subFile e.1 name := by rw [hRn]; exact hne _ (List.getElem_mem _)
          have hf1 := w5 R hR1
          obtain ⟨t1, t2, t3⟩ := l3 n hn' R hRn hRo (by
            intro f hf hh
            have : f ∈ filesOf st1 R := mem_filesOf.2 ⟨hf, hh⟩
            rw [hf1] at this
            exact hRst f (mem_filesOf.1 this).1 hh)
          simp only [List.getElem_cons_succ]
          refine ⟨fun hw h' d' hx' => t1 (fun m hm => ?_) h' d' hx', fun hw hnw => t2 (fun m hm => ?_) ?_, fun hex => ?_⟩
          · have := hw (m + 1) (by omega)
            rwa [show i + (m + 1) = i + 1 + m by omega] at this
          · have := hw (m + 1) (by omega)
            rwa [show i + (m + 1) = i + 1 + m by omega] at this
          · rwa [show i + (n + 1) = i + 1 + n by omega] at hnw
          · obtain ⟨m, hm, hmw⟩ := hex
            rw [t3 ?_, hf1]
            cases m with
            | zero => exact absurd hwr hmw
            | succ m => exact ⟨m, by omega, by rwa [show i + (m + 1) = i + 1 + m by omega] at hmw⟩

end Gfs
end CCGL
