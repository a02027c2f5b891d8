import Verif.Props.AppGfsComJobs
import Verif.Props.AppGfsEx
/-!
# Examples for C88
-/
namespace CCGL
namespace App
open Fs Disk Main Raster Gfs Disk.Spec App.Spec

/-- C88: numbers that have been written to the bucket with the options of the jobs (one layer, types in which they fit) are found by the mode COM. -/
theorem C88_numbers {rnd : ℚ → ℚ} (hrnd : ∀ v, CCGL.Spec.Representable .float v → rnd v = v) {T ty : RDT} {rm : Nat → Bool} {att : Nat → Attempt}
    {st : Store} {name : Str} {h : Header} {cells : List ℚ} {opts : Opts} (hg : CCGL.Spec.GoodKey ⟨name, CCGL.Spec.withType T opts⟩)
    (hs : CCGL.Spec.StorableHeader h) (hsub : ∀ k v, (k, v) ∈ wholeOpts ty → (k, v) ∈ CCGL.Spec.withType T opts) (hTO : CCGL.Spec.StorableAs T ty)
    (hr : ∀ v ∈ cells, CCGL.Spec.Representable T v ∧ Fits ty v) (hl : h.layers = 1) (hlen : (cells.length : Int) = h.cellsnum)
    (hrm : ∀ i, rm i = true) (hatt : ∀ i, CCGL.Spec.CleanAttempt (att i))
    (hold : ∀ f ∈ st, CCGL.Spec.Has f ⟨name, wholeOpts ty⟩ → CCGL.Spec.Has f ⟨name, CCGL.Spec.withType T opts⟩) :
    ∃ st' ok n, writeGridfs rnd T rm att st name (headerMap h) (some cells) cells.length opts = .ok (st', ok, n) ∧
      (ok = true ↔ ∃ i, i < 4 ∧ (att i).reported = true) ∧ (ok = true → HoldsNumbers rnd st' name (wholeOpts ty) cells) := by
  obtain ⟨st', ok, n, e1, e2, e3⟩ := C28_file (rnd := rnd) hrnd (T := T) (O := ty) (T' := .double) (rm := rm) (att := att) (st := st) (name := name)
    (h := h) (cells := cells) (opts := opts) (ty := rdtToString ty.code) hg hs (hsub _ _ (.head _)) (C25_roundtrip ty) hTO
    (fun v hv => ⟨(hr v hv).1, (hr v hv).2.2, (hr v hv).2.1⟩) (by rw [hl, mul_one]; exact hlen) hrm hatt
  refine ⟨st', ok, n, e1, e2, fun hok => ⟨?_, ?_⟩⟩
  · have := hs.cellsnum.2
    have h2 : (cells.length : Int) < 2 ^ 31 := by rw [hlen]; exact this
    exact_mod_cast h2
  · intro ok1 ok2 h1 h2
    obtain ⟨hm, sm, q1, q2, -⟩ := e3 hok ⟨name, wholeOpts ty⟩ (wholeOpts_good ty hg.name) rfl hsub hold ok1 ok2 h1 h2
    obtain ⟨-, -, q3, q4, -⟩ := q2
    refine ⟨hm, sm, q1, ?_, ?_⟩
    · rw [q4, ← hlen]
    · rw [q3, hl]

/-- The mask of C79 with its groups. -/
theorem exCom_mask : ∃ m, ComMask m (exComH 2 3) exComM := by
  obtain ⟨M, eM, hb, hcl, hg, hn, hval, h2, hl, hnc⟩ := mask_file exCom_m NODATA
  obtain ⟨m, b, eb, hm⟩ := cutMask_of hb hcl hg hn hval h2 ⟨0, 0, exCom_00.1⟩
  exact ⟨m, hm.comMask⟩

def exComDbJob : Job := { exComJob with inputs := ["1_x".toList, "7_x".toList], inFmt := .gfs, out := "x".toList, outFmt := .gfs }

theorem exComDb_name (s : Str) (h : Char.ofNat 0 ∉ s ∧ '/' ∉ s ∧ s ≠ ['.'] ∧ s ≠ ['.', '.'] ∧ '.' ∉ s) : BucketName s s :=
  ⟨h.1, h.2.1, h.2.2.1, h.2.2.2.1, .inl ⟨rfl, h.2.2.2.2⟩⟩

theorem exComDb_storable (rows cols n : Int) (h1 : 0 ≤ rows) (h2 : rows < 10) (h3 : 0 ≤ cols) (h4 : cols < 10) (h5 : 0 < n) (h6 : n < 100) :
    CCGL.Spec.StorableHeader { exComH rows cols with layers := 1, cellsnum := n } := by
  have hz : ∀ z : Int, (1 / 2 : ℚ) ≠ z := by
    intro z h
    have : (1 : ℚ) = ((2 * z : Int) : ℚ) := by push_cast; linarith
    have h2 : (1 : Int) = 2 * z := by exact_mod_cast this
    omega
  refine ⟨⟨h1, ?_⟩, ⟨h3, ?_⟩, ⟨by dsimp only; decide, by dsimp only; decide⟩, ⟨h5, ?_⟩, ?_, ?_, fun z h => absurd h (hz z), fun z h => absurd h (hz z)⟩
  · show rows < _; omega
  · show cols < _; omega
  · show n < _; omega
  · show n * 1 < _; omega
  intro z h
  have h' : (1 : ℚ) = z := h
  have : (1 : Int) = z := by exact_mod_cast h'
  omega

theorem exComDb_key (s : String) (h : CCGL.Spec.GoodKey ⟨s.toList, wholeOpts .double⟩) :
    CCGL.Spec.withType .double (wholeOpts .double) = wholeOpts .double ∧ CCGL.Spec.GoodKey ⟨s.toList, CCGL.Spec.withType .double (wholeOpts .double)⟩ := by
  have hwt : CCGL.Spec.withType .double (wholeOpts .double) = wholeOpts .double := by
    unfold CCGL.Spec.withType; rw [if_pos ⟨_, .head _⟩]
  exact ⟨hwt, by rw [hwt]; exact h⟩

noncomputable def exComDbVal : Int → Int → ℚ := comVal (exComH 2 3) exComM [some (1, exW1), none] exComDbJob.default.toQ

/-- Two numbers for group 1 are written to an empty bucket as `1_x`: the job with the inputs `1_x` and `7_x` (no such group) meets the hypotheses. -/
theorem exComDb_ok : ∃ st n, writeGridfs exSys.rnd .double (fun _ => true) goodAtt [] "1_x".toList (headerMap { exComH 1 3 with layers := 1, cellsnum := 2 })
      (some [5, 6]) 2 (wholeOpts .double) = .ok (st, true, n) ∧ ComDbJob exSys exComDisk st (exComH 2 3) exComM (exComDbJob, exDb) [some (1, exW1), none] ∧
    exComDbVal 0 0 = 5 ∧ exComDbVal 0 2 = 6 ∧ exComDbVal 0 1 = 4 ∧ exComDbVal 1 0 = 4 ∧ exComDbVal 1 2 = -9999 := by
  unfold exComDbVal
  obtain ⟨hwt, hk⟩ := exComDb_key "1_x" (wholeOpts_good .double (by decide +kernel))
  obtain ⟨st, ok, n, e1, e2, e3⟩ := C88_numbers (rnd := exSys.rnd) (fun v _ => rfl) (T := .double) (ty := .double) (rm := fun _ => true) (att := goodAtt)
    (st := []) (name := "1_x".toList) (h := { exComH 1 3 with layers := 1, cellsnum := 2 }) (cells := [5, 6]) (opts := wholeOpts .double) hk
    (exComDb_storable 1 3 2 (by decide) (by decide) (by decide) (by decide) (by decide) (by decide)) (fun k v h => by rw [hwt]; exact h) (.inl rfl)
    (by
      intro v hv
      simp only [List.mem_cons, List.not_mem_nil, or_false] at hv
      rcases hv with rfl | rfl
      · have := ex_fits 5 (by decide); exact ⟨this.1, this⟩
      · have := ex_fits 6 (by decide); exact ⟨this.1, this⟩) rfl rfl (fun _ => rfl) (fun _ => .inl ⟨rfl, rfl⟩) (by simp)
  have hok : ok = true := e2.2 ⟨0, by decide, rfl⟩
  have hH := e3 hok
  rw [hok] at e1
  have hany : ∀ i, i < 5 → Answered (exDb.cok1 i) ∧ Answered (exDb.cok2 i) := fun i _ => ⟨⟨0, by decide, rfl⟩, ⟨0, by decide, rfl⟩⟩
  have hin : ComPieces exSys exComDisk st true (byValue (exComH 2 3) exComM) exComDbJob exDb [some (1, exW1), none] := by
    refine .bucket [("1_x".toList, "1_x".toList, some (1, exW1)), ("7_x".toList, "7_x".toList, none)] ⟨rfl, rfl, ?_, ?_⟩ rfl
    · intro x hx
      simp only [List.mem_cons, List.not_mem_nil, or_false] at hx
      rcases hx with rfl | rfl
      · exact exComDb_name _ (by decide)
      · exact exComDb_name _ (by decide)
    · intro i x hx
      have hi : i < 2 := by
        by_contra hcon
        rw [List.getElem?_eq_none (by simp; omega)] at hx
        cases hx
      have : i = 0 ∨ i = 1 := by omega
      rcases this with rfl | rfl
      · cases hx
        refine .values (k := 1) (cells := [5, 6]) (cs := [(0, 0), (0, 2)]) (exCom_number 1 (by decide) (by decide) "x" _ (by decide +kernel))
          ⟨0, 0, exCom_00⟩ ⟨0, by decide, rfl⟩ ⟨0, by decide, rfl⟩ rfl hH ⟨?_, ?_⟩ (by decide +kernel)
        · exact List.pairwise_pair.2 (.inr ⟨rfl, by decide⟩)
        · intro a
          constructor
          · intro ha
            simp only [List.mem_cons, List.not_mem_nil, or_false] at ha
            rcases ha with rfl | rfl
            · exact exCom_00
            · exact exCom_02
          · intro ha
            obtain ⟨r, c⟩ := a
            rcases exCom_cells ha with h | h | h | h | h <;> obtain ⟨rfl, rfl, h⟩ := h <;> first
              | (exfalso; revert h; decide)
              | simp
      · cases hx
        refine .nogroup (k := 7) (exCom_number 7 (by decide) (by decide) "x" _ (by decide +kernel)) ?_
        rintro ⟨r, c, h⟩
        rcases exCom_cells h with h | h | h | h | h <;> obtain ⟨-, -, h⟩ := h <;> revert h <;> decide
  have hval : ∀ k row col, byValue (exComH 2 3) exComM k row col → comVal (exComH 2 3) exComM [some (1, exW1), none] exComDbJob.default.toQ row col =
      match lastPiece [some (1, exW1), none] k with
      | some w => w row col
      | none => if floatEqual (exComH 2 3).noData 4 = true then (exComH 2 3).noData else 4 := by
    intro k row col hk
    unfold comVal
    rw [if_pos hk.1, hk.2]
    rfl
  have v00 := hval _ _ _ exCom_00
  have v01 := hval _ _ _ exCom_01
  have v02 := hval _ _ _ exCom_02
  have v10 := hval _ _ _ exCom_10
  have v11 := hval _ _ _ exCom_11
  have v12 : comVal (exComH 2 3) exComM [some (1, exW1), none] exComDbJob.default.toQ 1 2 = -9999 := by
    unfold comVal
    rw [if_neg (fun h => by have := h.2; revert this; decide +kernel)]
    rfl
  have d00 : comVal (exComH 2 3) exComM [some (1, exW1), none] exComDbJob.default.toQ 0 0 = 5 := by rw [v00]; decide +kernel
  have d01 : comVal (exComH 2 3) exComM [some (1, exW1), none] exComDbJob.default.toQ 0 1 = 4 := by rw [v01]; decide +kernel
  have d02 : comVal (exComH 2 3) exComM [some (1, exW1), none] exComDbJob.default.toQ 0 2 = 6 := by rw [v02]; decide +kernel
  have d10 : comVal (exComH 2 3) exComM [some (1, exW1), none] exComDbJob.default.toQ 1 0 = 4 := by rw [v10]; decide +kernel
  have d11 : comVal (exComH 2 3) exComM [some (1, exW1), none] exComDbJob.default.toQ 1 1 = 4 := by rw [v11]; decide +kernel
  have hold : ∀ f ∈ st, CCGL.Spec.Has f ⟨storedName exComDbJob.out, wholeOpts .double⟩ →
      CCGL.Spec.Has f ⟨storedName exComDbJob.out, outOpts .double exDb.own (wholeOpts .double) true⟩ := by
    intro f _ hf
    have ho : outOpts .double exDb.own (wholeOpts .double) true = wholeOpts .double := by
      show outOpts .double [] (wholeOpts .double) true = wholeOpts .double
      decide +kernel
    rw [ho]
    exact hf
  have hfit : ∀ row col, (exComH 2 3).grid.CellInside row col →
      Fits .double (comVal (exComH 2 3) exComM [some (1, exW1), none] exComDbJob.default.toQ row col) := by
    intro row col hc
    obtain ⟨a1, a2, a3, a4⟩ := hc
    have a2 : row < 2 := a2
    have a4 : col < 3 := a4
    have er : row = 0 ∨ row = 1 := by omega
    have ec : col = 0 ∨ col = 1 ∨ col = 2 := by omega
    rcases er with rfl | rfl <;> rcases ec with rfl | rfl | rfl
    · rw [d00]; exact ex_fits 5 (by decide)
    · rw [d01]; exact ex_fits 4 (by decide)
    · rw [d02]; exact ex_fits 6 (by decide)
    · rw [d10]; exact ex_fits 4 (by decide)
    · rw [d11]; exact ex_fits 4 (by decide)
    · rw [v12]; exact_mod_cast ex_fits (-9999) (by decide)
  refine ⟨st, n, e1, ⟨⟨rfl, by decide⟩, hin, ⟨_, .head _, by simp⟩,
    ⟨ex_key, exComDb_storable 2 3 6 (by decide) (by decide) (by decide) (by decide) (by decide) (by decide), ⟨by decide, by decide, by decide⟩, fun _ => rfl,
      fun _ => .inl ⟨rfl, rfl⟩, hold⟩, hfit⟩, d00, d02, d01, d10, v12⟩

/-- The job alone: the cells of group 1 have the two numbers, the other cells of the mask the default value 4. -/
example : ∃ st m m' st', ComMask m (exComH 2 3) exComM ∧ comJobDb exSys true (exComDisk, st, m) (exComDbJob, exDb) = .ok (exComDisk, st', m') ∧
    HoldsGrid exSys.rnd st' "0_x".toList (wholeOpts .double) (exComH 2 3) exComDbVal := by
  obtain ⟨m, hm⟩ := exCom_mask
  obtain ⟨st, n, -, h, -⟩ := exComDb_ok
  obtain ⟨st', m', f1, -, -, f2, -⟩ := C88_bucket_partial exSys (fun v _ => rfl) hm h.input h.some h.fmt.1 h.fmt.2 h.out h.fits
  exact ⟨st, m, m', st', hm, f1, f2 ⟨0, by decide, rfl⟩⟩

/-- A run with this job: exit code 0. -/
example : ∃ st m st', runJobsDb exSys true .com (some m) exComDisk st [(exComDbJob, exDb)] = .ok (0, exComDisk, st') ∧
    HoldsGrid exSys.rnd st' "0_x".toList (wholeOpts .double) (exComH 2 3) exComDbVal := by
  obtain ⟨m, hm⟩ := exCom_mask
  obtain ⟨st, n, -, h, -⟩ := exComDb_ok
  obtain ⟨st', f1, -, f2⟩ := C88_jobs_partial exSys (fun v _ => rfl) hm (List.pairwise_singleton _ _) (.cons h .nil)
  cases f2 with
  | cons a _ => exact ⟨st, m, st', f1, a.1 ⟨0, by decide, rfl⟩⟩

/-- With an empty bucket the same job has undefined behaviour. -/
example : ∃ m, ComMask m (exComH 2 3) exComM ∧ comJobDb exSys true (exComDisk, [], m) (exComDbJob, exDb) = .ub := by
  obtain ⟨m, hm⟩ := exCom_mask
  refine ⟨m, hm, C88_false_nothing exSys hm ⟨0, 0, exCom_00.1⟩ (pieces := [none, none])
    (.bucket [("1_x".toList, "1_x".toList, none), ("7_x".toList, "7_x".toList, none)] ⟨rfl, rfl, ?_, ?_⟩ rfl) (by simp) rfl⟩
  · intro x hx
    simp only [List.mem_cons, List.not_mem_nil, or_false] at hx
    rcases hx with rfl | rfl
    · exact exComDb_name _ (by decide)
    · exact exComDb_name _ (by decide)
  · intro i x hx
    have : x.2.2 = none := by
      have := List.mem_of_getElem? hx
      simp only [List.mem_cons, List.not_mem_nil, or_false] at this
      rcases this with rfl | rfl <;> rfl
    rw [this]
    exact .missing (by simp)

end App
end CCGL
