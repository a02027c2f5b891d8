import Verif.Lemmas.SubObjStep
import Verif.Props.SubsetData
/-!
# `SubsetPositions` objects (C94)
-/
namespace CCGL
namespace SubObj
open Spec

/-- One allowed call. -/
theorem step_sim {w R} (h : Rel w R) (op : Op) {R' : Refs} {ob : Obs} (e : refStep R op = some (R', ob)) :
    ∃ w', step w op = .ok (w', ob) ∧ Rel w' R' := by
  cases op with
  | new a b c d => cases e
  | build a b c d cells =>
    simp only [refStep] at e
    split at e
    next hok =>
      cases e
      obtain ⟨w', e1, h1⟩ := build_sim h a b c d cells hok
      exact ⟨w', by simp only [step, e1, Out.ok_bind], h1⟩
    next => cases e
  | copy s deep =>
    cases deep with
    | true =>
      simp only [refStep] at e
      cases hx : R.objs s with
      | none => rw [hx] at e; cases e
      | some x =>
        rw [hx] at e
        cases e
        obtain ⟨w', e1, h1⟩ := deep_sim h hx
        exact ⟨w', by simp only [step, e1, Out.ok_bind], h1⟩
    | false =>
      simp only [refStep] at e
      cases hx : R.objs s with
      | none => rw [hx] at e; cases e
      | some x =>
        rw [hx] at e
        simp only [Option.bind_eq_bind, Option.bind_some] at e
        split at e
        next hl =>
          cases e
          obtain ⟨w', e1, h1⟩ := shallow_sim h hx hl
          exact ⟨w', by simp only [step, e1, Out.ok_bind], h1⟩
        next => cases e
  | destroy i =>
    simp only [refStep] at e
    cases hx : R.objs i with
    | none => rw [hx] at e; cases e
    | some x =>
      rw [hx] at e
      simp only [Option.bind_eq_bind, Option.bind_some] at e
      split at e
      next hb =>
        cases e
        obtain ⟨w', e1, h1⟩ := destroy_sim h hx hb
        exact ⟨w', by simp only [step, e1, Out.ok_bind], h1⟩
      next => cases e
  | setData i n data =>
    simp only [refStep] at e
    cases hx : R.objs i with
    | none => rw [hx] at e; cases e
    | some x =>
      rw [hx] at e
      simp only [Option.bind_eq_bind, Option.bind_some] at e
      obtain ⟨o, ho⟩ := h.obj hx
      have hM := h.mems i o x ho hx
      by_cases hn : n ≠ (x.shape.count : Int)
      · rw [if_pos hn] at e
        cases e
        refine ⟨w, ?_, h⟩
        simp only [step, setData, get_ok ho, Out.ok_bind]
        rw [if_pos (by rw [hM.n]; exact hn), Out.ok_bind]
      · rw [if_neg hn] at e
        have hn' : n = x.shape.count := not_not.1 hn
        subst hn'
        cases data with
        | none =>
          cases e
          refine ⟨w, ?_, h⟩
          simp only [step, setData, get_ok ho, Out.ok_bind]
          rw [if_neg (by rw [hM.n]; exact hn), Out.ok_bind]
        | some l =>
          simp only at e
          split at e
          next hl =>
            cases e
            obtain ⟨w', e1, h1⟩ := setData_sim h hx ho o.nLyrs l hl
            have hid : w.set i { o with nLyrs := o.nLyrs } = w := by
              unfold World.set
              congr 1
              funext k
              by_cases hk : k = i
              · rw [hk, upd_same, ho]
              · rw [upd_ne _ _ hk]
            rw [hid] at e1
            exact ⟨w', by simp only [step, e1, Out.ok_bind], h1⟩
          next => cases e
  | set2DData i n lyr data =>
    simp only [refStep] at e
    cases hx : R.objs i with
    | none => rw [hx] at e; cases e
    | some x =>
      rw [hx] at e
      simp only [Option.bind_eq_bind, Option.bind_some] at e
      obtain ⟨o, ho⟩ := h.obj hx
      have hM := h.mems i o x ho hx
      by_cases hn : n ≠ (x.shape.count : Int)
      · rw [if_pos hn] at e
        cases e
        refine ⟨w, ?_, h⟩
        simp only [step, set2DData, get_ok ho, Out.ok_bind]
        rw [if_pos (by rw [hM.n]; exact hn), Out.ok_bind]
      · rw [if_neg hn] at e
        have hn' : n = x.shape.count := not_not.1 hn
        subst hn'
        cases data with
        | none =>
          cases e
          refine ⟨w, ?_, h⟩
          simp only [step, set2DData, get_ok ho, Out.ok_bind]
          rw [if_neg (by rw [hM.n]; exact hn), Out.ok_bind]
        | some l =>
          simp only at e
          split at e
          next hl =>
            cases e
            obtain ⟨w', e1, h1⟩ := set2DData_sim h hx lyr l hl.1 hl.2.1 hl.2.2.1 hl.2.2.2
            exact ⟨w', by simp only [step, e1, Out.ok_bind], h1⟩
          next => cases e
  | readDb i file =>
    cases file with
    | none =>
      cases e
      exact ⟨w, rfl, h⟩
    | some f =>
      obtain ⟨dbn, dbl, db⟩ := f
      simp only [refStep] at e
      cases hx : R.objs i with
      | none => rw [hx] at e; cases e
      | some x =>
        rw [hx] at e
        simp only [Option.bind_eq_bind, Option.bind_some] at e
        obtain ⟨o, ho⟩ := h.obj hx
        have hM := h.mems i o x ho hx
        have hfull : (o.erow - o.srow + 1) * (o.ecol - o.scol + 1) = x.shape.size := by
          rw [hM.erow, hM.srow, hM.ecol, hM.scol]; rfl
        by_cases hn : (x.shape.size ≠ dbn ∧ (x.shape.count : Int) ≠ dbn) ∨ dbl < 0
        · rw [if_pos hn] at e
          cases e
          refine ⟨w, ?_, h⟩
          simp only [step, readDb, get_ok ho, Out.ok_bind, hfull]
          rw [if_pos (by rw [hM.n]; exact hn), Out.ok_bind]
        · rw [if_neg hn] at e
          split at e
          next hl =>
            cases e
            have hor : dbn = x.shape.size ∨ dbn = x.shape.count := by
              by_contra hc
              push Not at hc
              exact hn (Or.inl ⟨fun e => hc.1 e.symm, fun e => hc.2 e.symm⟩)
            obtain ⟨w', e1, h1⟩ := readDb_sim h hx dbn dbl db hor hl.1 hl.2.1 hl.2.2
            exact ⟨w', by simp only [step, e1, Out.ok_bind], h1⟩
          next => cases e
  | output i v =>
    simp only [refStep] at e
    cases hx : R.objs i with
    | none => rw [hx] at e; cases e
    | some x =>
      rw [hx] at e
      cases e
      exact ⟨w, by simp only [step, output_sim h hx v, Out.ok_bind], h⟩
  | members i =>
    simp only [refStep] at e
    cases hx : R.objs i with
    | none => rw [hx] at e; cases e
    | some x =>
      rw [hx] at e
      cases e
      obtain ⟨o, ho⟩ := h.obj hx
      have hM := h.mems i o x ho hx
      refine ⟨w, ?_, h⟩
      simp only [step, get_ok ho, Out.ok_bind, hM.usable, hM.n, hM.lyrs, hM.srow, hM.erow, hM.scol, hM.ecol]
      cases x.layers <;> rfl
  | positions i =>
    simp only [refStep] at e
    cases hx : R.objs i with
    | none => rw [hx] at e; cases e
    | some x =>
      rw [hx] at e
      cases e
      obtain ⟨o, ho⟩ := h.obj hx
      have hC := h.conts i x hx
      refine ⟨w, ?_, h⟩
      simp only [step, get_ok ho, Out.ok_bind, ints_of_cont ho hC.glob, pairs_of_cont ho hC.lpos, ints_of_cont ho hC.lidx]

theorem run_sim : ∀ (ops : List Op) {w R} (_ : Rel w R) {R' obs}, refRun R ops = some (R', obs) →
    ∃ w', run w ops = .ok (w', obs) ∧ Rel w' R'
  | [], w, R, h, R', obs, e => by cases e; exact ⟨w, rfl, h⟩
  | op :: ops, w, R, h, R', obs, e => by
    simp only [refRun, Option.bind_eq_bind] at e
    cases e1 : refStep R op with
    | none => rw [e1] at e; cases e
    | some x =>
      obtain ⟨R1, ob⟩ := x
      rw [e1] at e
      simp only [Option.bind_some] at e
      cases e2 : refRun R1 ops with
      | none => rw [e2] at e; cases e
      | some y =>
        rw [e2] at e
        cases e
        obtain ⟨w1, s1, h1⟩ := step_sim h op e1
        obtain ⟨w2, s2, h2⟩ := run_sim ops h1 e2
        exact ⟨w2, by simp only [run, s1, Out.ok_bind, s2], h2⟩

/-- **C94.** Every history of allowed calls — building subsets, deep and shallow copies, data of one or several layers, data from stored files,
output, destruction — runs without undefined behaviour, the caller sees what the heap-free reference says, and once all objects have been
destroyed no block is left. -/
theorem C94_history (ops : List Op) (R : Refs) (obs : List Obs) (h : refRun .start ops = some (R, obs)) :
    ∃ w, run .start ops = .ok (w, obs) ∧ ((∀ i, R.objs i = none) → ∀ a, w.heap a = none) := by
  obtain ⟨w, e, hR⟩ := run_sim ops Rel.start h
  refine ⟨w, e, ?_⟩
  intro hall a
  cases hb : w.heap a with
  | none => rfl
  | some b =>
    obtain ⟨i, f, o, ho, _⟩ := hR.mem.noleak a b hb
    rw [(hR.dom i).2 (hall i)] at ho; cases ho

/-- The calls that change object `i`. -/
def Changes (i : Nat) : Op → Prop
  | .destroy j => j = i
  | .setData j _ _ => j = i
  | .set2DData j _ _ _ => j = i
  | .readDb j _ => j = i
  | _ => False

theorem refStep_other {R R' : Refs} {op : Op} {ob : Obs} (e : refStep R op = some (R', ob)) {i : Nat} (hc : ¬ Changes i op)
    (hlt : i < R.cnt) : R'.objs i = R.objs i ∧ i < R'.cnt := by
  have hpush : ∀ x, (R.push x).objs i = R.objs i ∧ i < (R.push x).cnt := by
    intro x
    refine ⟨?_, by show i < R.cnt + 1; omega⟩
    show (if i = R.cnt then some x else R.objs i) = _
    rw [if_neg (by omega)]
  have hput : ∀ j x, j ≠ i → (R.put j x).objs i = R.objs i ∧ i < (R.put j x).cnt := by
    intro j x hj
    refine ⟨?_, hlt⟩
    show (if i = j then x else R.objs i) = _
    rw [if_neg (fun e => hj e.symm)]
  cases op with
  | new a b c d => cases e
  | build a b c d cells =>
    simp only [refStep] at e
    split at e
    · cases e; exact hpush _
    · cases e
  | copy s deep =>
    cases deep <;> simp only [refStep] at e <;> cases hx : R.objs s with
    | none => rw [hx] at e; cases e
    | some x =>
      rw [hx] at e
      simp only [Option.bind_eq_bind, Option.bind_some] at e
      first
        | (cases e; exact hpush _)
        | (split at e
           · cases e; exact hpush _
           · cases e)
  | destroy j =>
    simp only [refStep] at e
    cases hx : R.objs j with
    | none => rw [hx] at e; cases e
    | some x =>
      rw [hx] at e
      simp only [Option.bind_eq_bind, Option.bind_some] at e
      split at e
      · cases e; exact hput _ _ (fun h => hc h)
      · cases e
  | setData j n data =>
    simp only [refStep] at e
    cases hx : R.objs j with
    | none => rw [hx] at e; cases e
    | some x =>
      rw [hx] at e
      simp only [Option.bind_eq_bind, Option.bind_some] at e
      split at e
      · cases e; exact ⟨rfl, hlt⟩
      · split at e
        · cases e; exact ⟨rfl, hlt⟩
        · split at e
          · cases e; exact hput _ _ (fun h => hc h)
          · cases e
  | set2DData j n lyr data =>
    simp only [refStep] at e
    cases hx : R.objs j with
    | none => rw [hx] at e; cases e
    | some x =>
      rw [hx] at e
      simp only [Option.bind_eq_bind, Option.bind_some] at e
      split at e
      · cases e; exact ⟨rfl, hlt⟩
      · split at e
        · cases e; exact ⟨rfl, hlt⟩
        · split at e
          · cases e; exact hput _ _ (fun h => hc h)
          · cases e
  | readDb j file =>
    cases file with
    | none => cases e; exact ⟨rfl, hlt⟩
    | some f =>
      obtain ⟨dbn, dbl, db⟩ := f
      simp only [refStep] at e
      cases hx : R.objs j with
      | none => rw [hx] at e; cases e
      | some x =>
        rw [hx] at e
        simp only [Option.bind_eq_bind, Option.bind_some] at e
        split at e
        · cases e; exact ⟨rfl, hlt⟩
        · split at e
          · cases e; exact hput _ _ (fun h => hc h)
          · cases e
  | output j v =>
    simp only [refStep] at e
    cases hx : R.objs j with
    | none => rw [hx] at e; cases e
    | some x => rw [hx] at e; cases e; exact ⟨rfl, hlt⟩
  | members j =>
    simp only [refStep] at e
    cases hx : R.objs j with
    | none => rw [hx] at e; cases e
    | some x => rw [hx] at e; cases e; exact ⟨rfl, hlt⟩
  | positions j =>
    simp only [refStep] at e
    cases hx : R.objs j with
    | none => rw [hx] at e; cases e
    | some x => rw [hx] at e; cases e; exact ⟨rfl, hlt⟩

theorem refRun_other : ∀ (ops : List Op) {R R' : Refs} {obs}, refRun R ops = some (R', obs) → ∀ {i : Nat}, (∀ op ∈ ops, ¬ Changes i op) →
    i < R.cnt → R'.objs i = R.objs i
  | [], R, R', obs, e, i, _, _ => by cases e; rfl
  | op :: ops, R, R', obs, e, i, hc, hlt => by
    simp only [refRun, Option.bind_eq_bind] at e
    cases e1 : refStep R op with
    | none => rw [e1] at e; cases e
    | some x =>
      obtain ⟨R1, ob⟩ := x
      rw [e1] at e
      simp only [Option.bind_some] at e
      cases e2 : refRun R1 ops with
      | none => rw [e2] at e; cases e
      | some y =>
        rw [e2] at e
        cases e
        obtain ⟨h1, h2⟩ := refStep_other e1 (hc op (by simp)) hlt
        rw [refRun_other ops e2 (fun o ho => hc o (by simp [ho])) h2, h1]

theorem refRun_append : ∀ (ops ops' : List Op) (R : Refs), refRun R (ops ++ ops') =
    (refRun R ops).bind (fun x => (refRun x.1 ops').map (fun y => (y.1, x.2 ++ y.2)))
  | [], ops', R => by
    simp only [refRun, List.nil_append, Option.bind_some]
    cases refRun R ops' <;> rfl
  | op :: ops, ops', R => by
    simp only [List.cons_append, refRun, Option.bind_eq_bind]
    cases refStep R op with
    | none => rfl
    | some x =>
      simp only [Option.bind_some, refRun_append ops ops' x.1]
      cases refRun x.1 ops with
      | none => rfl
      | some y =>
        simp only [Option.bind_some]
        cases refRun y.1 ops' <;> rfl

theorem cnt_of_live : ∀ (ops : List Op) {R obs}, refRun .start ops = some (R, obs) → ∀ {i x}, R.objs i = some x → i < R.cnt := by
  intro ops R obs h i x hx
  obtain ⟨w, _, hR⟩ := run_sim ops Rel.start h
  obtain ⟨o, ho⟩ := hR.obj hx
  rw [← hR.cnt]; exact hR.mem.cnt i o ho

/-- **C94 (independence).** What `Output` gives for an object depends only on the calls on that object: after any further calls on other objects
(copies of it that get other data, copies that are destroyed, …) it is the same as before them. -/
theorem C94_independent (ops more : List Op) (R R' : Refs) (obs obs' : List Obs) (h : refRun .start ops = some (R, obs))
    (h' : refRun R more = some (R', obs')) (i : Nat) (hi : R.objs i ≠ none) (hc : ∀ op ∈ more, ¬ Changes i op) (nodata : ℚ) :
    ∃ w w' l, run .start (ops ++ [.output i nodata]) = .ok (w, obs ++ [.arrays l]) ∧
      run .start (ops ++ (more ++ [.output i nodata])) = .ok (w', obs ++ (obs' ++ [.arrays l])) := by
  cases hx : R.objs i with
  | none => exact absurd hx hi
  | some x =>
    have hx' : R'.objs i = some x := by rw [refRun_other more h' hc (cnt_of_live ops h hx), hx]
    have e1 : refRun R [.output i nodata] = some (R, [.arrays ((x.layers.getD []).map (x.shape.full nodata))]) := by
      simp [refRun, refStep, hx]
    have e2 : refRun R' [.output i nodata] = some (R', [.arrays ((x.layers.getD []).map (x.shape.full nodata))]) := by
      simp [refRun, refStep, hx']
    have f1 : refRun .start (ops ++ [.output i nodata]) = some (R, obs ++ [.arrays ((x.layers.getD []).map (x.shape.full nodata))]) := by
      rw [refRun_append, h, Option.bind_some, e1]; rfl
    have f2 : refRun .start (ops ++ (more ++ [.output i nodata])) =
        some (R', obs ++ (obs' ++ [.arrays ((x.layers.getD []).map (x.shape.full nodata))])) := by
      rw [refRun_append, h, Option.bind_some, refRun_append, h', Option.bind_some, e2]; rfl
    obtain ⟨w, g1, _⟩ := C94_history _ _ _ f1
    obtain ⟨w', g2, _⟩ := C94_history _ _ _ f2
    exact ⟨w, w', _, g1, g2⟩

/-- **C94 (built subsets).** Every subset that `BuildSubSet` makes of a raster is such an object, with its cells in the order the reference
asks for. -/
theorem C94_built {r : Raster} (hb : CCGL.Spec.Built r) (groups : IMap Int) {rs' : RasterS} {b : Bool}
    (hbuild : buildSubSet ⟨r, []⟩ groups = .ok (rs', b)) {k : Int} {s : Subset} (hs : rs'.subs.get k = some s) :
    ∃ cells g p x w, (Shape.mk s.srow s.erow s.scol s.ecol cells).Ok ∧ s.glob = some g ∧ s.localPos = some p ∧ s.localIdx = some x ∧
      s.data = none ∧ s.data2d = none ∧
      run .start [.build s.srow s.erow s.scol s.ecol cells, .members 0, .positions 0] =
        .ok (w, [.done, .members s.usable s.nCells s.nLyrs s.srow s.erow s.scol s.ecol, .positions g p x]) := by
  obtain ⟨rs'', b', e, -, -, -, -, -, -, -, -, -, hcase⟩ := build_spec hb groups
  rw [hbuild] at e
  cases e
  rcases hcase with ⟨-, ls, ps, hC, hok⟩ | ⟨h0, -⟩
  · obtain ⟨ho, hu, hl, hd, hd2⟩ := hok.some k s hs
    let G := (List.range ps.length).filter (selOf rs'.ras ls groups k)
    have hG : G = (List.range ps.length).filter (selOf rs'.ras ls groups k) := rfl
    rw [← hG] at ho
    let cells : List (Int × Int × Int) := G.map (fun (i : Nat) => ((i : Int), ((posAt ps i).1 - s.srow, (posAt ps i).2 - s.scol)))
    have hlt : ∀ i ∈ G, i < ps.length := fun i hi => List.mem_range.1 (List.mem_filter.1 hi).1
    have hshape : (Shape.mk s.srow s.erow s.scol s.ecol cells).Ok := by
      refine ⟨?_, ?_, ?_⟩
      · intro e
        exact ho.ne (List.map_eq_nil_iff.1 e)
      · intro c hc
        obtain ⟨i, hi, rfl⟩ := List.mem_map.1 hc
        have := ho.tight.1 i hi
        simp only [Shape.nrows, Shape.ncols]
        omega
      · show List.Pairwise _ cells
        rw [List.pairwise_map]
        have hsort : G.Pairwise (· < ·) := List.pairwise_lt_range.filter _
        refine hsort.imp_of_mem ?_
        intro i j hi hj hij
        have hi' := hlt i hi
        have hj' := hlt j hj
        have hsrt := hC.sorted
        rw [List.pairwise_map] at hsrt
        have hlt2 := List.pairwise_iff_getElem.1 hsrt i j hi' hj' hij
        have pi : posAt ps i = ps[i] := by unfold posAt; rw [List.getD_eq_getElem _ _ hi']
        have pj : posAt ps j = ps[j] := by unfold posAt; rw [List.getD_eq_getElem _ _ hj']
        have ti := ho.tight.1 i hi
        have tj := ho.tight.1 j hj
        have ii := hC.inside ps[i] (List.getElem_mem _)
        have ij := hC.inside ps[j] (List.getElem_mem _)
        rw [pi] at ti; rw [pj] at tj
        simp only [Shape.index, Shape.ncols, pi, pj]
        generalize ps[i] = A at *
        generalize ps[j] = B at *
        have hrow : A.1 < B.1 ∨ (A.1 = B.1 ∧ A.2 < B.2) := by
          rcases lt_trichotomy A.1 B.1 with h1 | h1 | h1
          · exact Or.inl h1
          · refine Or.inr ⟨h1, ?_⟩
            rw [h1] at hlt2; omega
          · exfalso
            have : (B.1 + 1) * rs'.ras.hdr.cols ≤ A.1 * rs'.ras.hdr.cols := mul_le_mul_of_nonneg_right (by omega) hC.cols_nn
            have e2 : (B.1 + 1) * rs'.ras.hdr.cols = B.1 * rs'.ras.hdr.cols + rs'.ras.hdr.cols := by ring
            omega
        rcases hrow with h1 | ⟨h1, h2⟩
        · have : (A.1 - s.srow + 1) * (s.ecol - s.scol + 1) ≤ (B.1 - s.srow) * (s.ecol - s.scol + 1) :=
            mul_le_mul_of_nonneg_right (by omega) (by omega)
          have e2 : (A.1 - s.srow + 1) * (s.ecol - s.scol + 1) = (A.1 - s.srow) * (s.ecol - s.scol + 1) + (s.ecol - s.scol + 1) := by ring
          omega
        · rw [h1]; omega
    have href : refRun .start [.build s.srow s.erow s.scol s.ecol cells, .members 0, .positions 0] = some
        (Refs.start.push ⟨⟨s.srow, s.erow, s.scol, s.ecol, cells⟩, none, none, none⟩,
          [.done, .members true cells.length (-1) s.srow s.erow s.scol s.ecol,
            .positions (cells.map (·.1)) (cells.map (·.2)) (cells.map (Shape.mk s.srow s.erow s.scol s.ecol cells).index)]) := by
      simp only [refRun, refStep, if_pos hshape, Option.bind_eq_bind, Option.bind_some]
      simp only [Refs.push, Refs.start, if_true, Option.bind_some]
      rfl
    obtain ⟨w, hw, _⟩ := C94_history _ _ _ href
    refine ⟨cells, cells.map (·.1), cells.map (·.2), cells.map (Shape.mk s.srow s.erow s.scol s.ecol cells).index, w, hshape,
      ?_, ?_, ?_, hd, hd2, ?_⟩
    · rw [ho.glob]; simp only [cells, List.map_map]; rfl
    · rw [ho.lpos]; simp only [cells, List.map_map]; rfl
    · rw [ho.lidx]; simp only [cells, List.map_map]; rfl
    · rw [hw, hu, hl, ho.n]
      simp only [cells, List.length_map]
  · rw [h0] at hs; cases hs

/-! ### Concrete histories -/

/-- Two cells of a box of 2 × 2: the corners of a diagonal. -/
def exCells : List (Int × Int × Int) := [(4, 0, 0), (7, 1, 1)]

/-- Non-vacuity of `C94_history`: build, data, deep copy, other data, output of both, layers from a full-size file, destruction of all. -/
def exOps : List Op :=
  [.build 3 4 5 6 exCells, .setData 0 2 (some [1, 2]), .copy 0 true, .set2DData 1 2 2 (some [[5, 6], [7, 8]]), .output 0 (-9), .output 1 (-9),
   .readDb 0 (some (4, 3, [10, 11, 12, 20, 21, 22, 30, 31, 32, 40, 41, 42])), .output 0 (-9), .members 1, .destroy 0, .output 1 0,
   .positions 1, .destroy 1]

example : (refRun .start exOps).map (·.2) = some
    [.done, .flag true, .done, .flag true, .arrays [[1, -9, -9, 2]], .arrays [[5, -9, -9, 7], [6, -9, -9, 8]],
     .flag true, .arrays [[10, -9, -9, 40], [11, -9, -9, 41], [12, -9, -9, 42]], .members true 2 2 3 4 5 6, .done, .arrays [[5, 0, 0, 7], [6, 0, 0, 8]],
     .positions [4, 7] [(0, 0), (1, 1)] [0, 3], .done] := by decide +kernel

/-- A shallow copy of a subset without data is safe while its source lives. -/
example : (refRun .start [.build 3 4 5 6 exCells, .copy 0 false, .copy 1 false, .setData 2 2 (some [1, 2]), .setData 0 2 (some [3, 4]),
    .output 2 0, .output 0 0, .destroy 2, .destroy 1, .destroy 0]).map (·.2) = some
    [.done, .done, .done, .flag true, .flag true, .arrays [[1, 0, 0, 2]], .arrays [[3, 0, 0, 4]], .done, .done, .done] := by decide +kernel

/-- Non-vacuity of `C94_independent`: object 0 keeps its values while its deep copy is changed and destroyed. -/
example : ∃ R obs R' obs', refRun .start [.build 3 4 5 6 exCells, .setData 0 2 (some [1, 2])] = some (R, obs) ∧
    refRun R [.copy 0 true, .setData 1 2 (some [8, 9]), .destroy 1] = some (R', obs') ∧ R.objs 0 ≠ none := by
  refine ⟨_, _, _, _, rfl, rfl, by decide +kernel⟩

/-- Finding: the default copy is shallow and shares the data: setting the data of the copy changes the source. -/
theorem C94_false_shared : (run .start [.build 3 4 5 6 exCells, .setData 0 2 (some [1, 2]), .copy 0 false, .setData 1 2 (some [8, 9]),
    .output 0 0] >>= fun x => .ok x.2) = .ok [.done, .flag true, .done, .flag true, .arrays [[8, 0, 0, 9]]] := by decide +kernel

/-- Finding: a shallow copy of a subset with data: the data are released twice. -/
theorem C94_false_double_free : (run .start [.build 3 4 5 6 exCells, .setData 0 2 (some [1, 2]), .copy 0 false, .destroy 1, .destroy 0] >>=
    fun x => .ok x.2) = .ub := by decide +kernel

/-- Finding: a shallow copy outlives its source: its positions dangle. -/
theorem C94_false_dangling : (run .start [.build 3 4 5 6 exCells, .copy 0 false, .destroy 0, .setData 1 2 (some [1, 2]), .output 1 0] >>=
    fun x => .ok x.2) = .ub := by decide +kernel

/-- Finding: one layer given by `Set2DData` is accepted but never output. -/
theorem C94_false_one_layer : (run .start [.build 3 4 5 6 exCells, .set2DData 0 2 1 (some [[1], [2]]), .output 0 0] >>= fun x => .ok x.2) =
    .ok [.done, .flag true, .arrays [[0, 0, 0, 0]]] := by decide +kernel

/-- Finding: one layer given by `Set2DData` after `SetData`: the old values are output. -/
theorem C94_false_stale : (run .start [.build 3 4 5 6 exCells, .setData 0 2 (some [8, 9]), .set2DData 0 2 1 (some [[1], [2]]), .output 0 0] >>=
    fun x => .ok x.2) = .ok [.done, .flag true, .flag true, .arrays [[8, 0, 0, 9]]] := by decide +kernel

/-- Finding: more layers than the first time overrun the array. -/
theorem C94_false_grow : (run .start [.build 3 4 5 6 exCells, .set2DData 0 2 2 (some [[1, 2], [3, 4]]),
    .set2DData 0 2 3 (some [[1, 2, 5], [3, 4, 6]])] >>= fun x => .ok x.2) = .ub := by decide +kernel

/-- Finding: a deep copy has less room than its source: the same call is fine on the source and overruns the copy. -/
theorem C94_false_copy_shrinks :
    (run .start [.build 3 4 5 6 exCells, .set2DData 0 2 2 (some [[1, 2], [3, 4]]), .setData 0 2 (some [1, 2]), .copy 0 true,
      .set2DData 0 2 2 (some [[1, 2], [3, 4]])] >>= fun x => .ok x.2) = .ok [.done, .flag true, .flag true, .done, .flag true] ∧
    (run .start [.build 3 4 5 6 exCells, .set2DData 0 2 2 (some [[1, 2], [3, 4]]), .setData 0 2 (some [1, 2]), .copy 0 true,
      .set2DData 1 2 2 (some [[1, 2], [3, 4]])] >>= fun x => .ok x.2) = .ub := by constructor <;> decide +kernel

/-- Finding: a subset made by the public constructor from a box has no arrays; its deep copy reads through a null pointer. -/
theorem C94_false_empty : (run .start [.new 0 1 0 1, .copy 0 true] >>= fun x => .ok x.2) = .ub := by decide +kernel

end SubObj
end CCGL
