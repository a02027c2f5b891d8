import Verif.Lemmas.ParMem2
/-!
# C85: every parallel loop is free of data races and has one result

For every OpenMP loop of the code, every distribution of the iterations over threads and every interleaving of the single memory accesses:
no two threads access the same array element if one of them writes it; the loop ends; and the memory afterwards is the one the
specification of the loop says. For reductions the private copies add up to the sum of the contributions of all iterations.
-/
namespace CCGL.Par
open CCGL.Par.Spec

variable {n : Nat} (s : Sched n) (mem : Mem)

/-- **C85, filling an array** (`Initialize1DArray`, `Initialize2DArray` with `n = row * col`). -/
theorem C85_fill (init : ℚ) : Deterministic (parFor s (fillBody init)) mem (put .data n (fun _ => init) mem) :=
  det_single s (ro := fun _ => False) .data _ (fun i => ⟨⟨rfl, rfl⟩, trivial⟩) (fun _ h => h.elim) (fun _ => rfl)

/-- **C85, copying an array.** -/
theorem C85_copy (cast : ℚ → ℚ) :
    Deterministic (parFor s (copyBody cast)) mem (put .data n (fun i => cast (mem ⟨.src, i, 0⟩)) mem) :=
  det_single s (ro := fun a => a.obj = .src) .data _ (fun i => ⟨Or.inr rfl, fun _ => ⟨⟨rfl, rfl⟩, trivial⟩⟩)
    (fun a h => by rw [h]; decide) (fun _ => rfl)

/-- **C85, cells for a floating-point GeoTIFF.** -/
theorem C85_convert_float (cast : ℚ → ℚ) :
    Deterministic (parFor s (convFloatBody cast)) mem (put .conv n (fun i => cast (mem ⟨.src, i, 0⟩)) mem) :=
  det_single s (ro := fun a => a.obj = .src) .conv _ (fun i => ⟨Or.inr rfl, fun _ => ⟨⟨rfl, rfl⟩, trivial⟩⟩)
    (fun a h => by rw [h]; decide) (fun _ => rfl)

/-- **C85, the first layer of a multi-layer raster.** -/
theorem C85_first_layer : Deterministic (parFor s firstLayerBody) mem (put .raster2 n (fun i => mem ⟨.raster, i, 0⟩) mem) :=
  det_single s (ro := fun a => a.obj = .raster) .raster2 _ (fun i => ⟨Or.inr rfl, fun _ => ⟨⟨rfl, rfl⟩, trivial⟩⟩)
    (fun a h => by rw [h]; decide) (fun _ => rfl)

/-- **C85, one layer from GridFS.** -/
theorem C85_gridfs_one (cast : ℚ → ℚ) : Deterministic (parFor s (mongo1Body cast)) mem
    (put .raster n (fun i => cast (mem ⟨.layer, (mem ⟨.posIdx, i, 0⟩).floor, 0⟩)) mem) :=
  det_single s (ro := fun a => a.obj = .posIdx ∨ a.obj = .layer) .raster _
    (fun i => ⟨Or.inr (Or.inl rfl), fun _ => ⟨Or.inr (Or.inr rfl), fun _ => ⟨⟨rfl, rfl⟩, trivial⟩⟩⟩)
    (fun a h => by rcases h with h | h <;> rw [h] <;> decide) (fun _ => rfl)

/-- **C85, `ReplaceNoData` of a one-dimensional raster.** -/
theorem C85_replace_one (nd rv : ℚ) : Deterministic (parFor s (replace1Body nd rv)) mem
    (put .raster n (fun i => if floatEqual (mem ⟨.raster, i, 0⟩) nd then rv else mem ⟨.raster, i, 0⟩) mem) := by
  refine det_single s (ro := fun _ => False) .raster _ (fun i => ⟨Or.inl ⟨rfl, rfl⟩, fun v => ?_⟩) (fun _ h => h.elim) (fun i => ?_)
  · dsimp only
    by_cases h : floatEqual v nd
    · rw [if_pos h]; exact ⟨⟨rfl, rfl⟩, trivial⟩
    · rw [if_neg h]; trivial
  · have e : (replace1Body nd rv i).run mem =
        (if floatEqual (mem ⟨.raster, i, 0⟩) nd then Prog.write ⟨.raster, i, 0⟩ rv .done else .done).run mem := rfl
    rw [e]
    by_cases h : floatEqual (mem ⟨.raster, i, 0⟩) nd
    · rw [if_pos h, if_pos h]; rfl
    · rw [if_neg h, if_neg h]
      funext a
      unfold Mem.set
      by_cases q : a = ⟨.raster, i, 0⟩
      · rw [if_pos q, q]; rfl
      · rw [if_neg q]; rfl

/-- A row loop of single writes, in the form of `put2`. -/
theorem det_row_loop {ro : Addr → Prop} (o : Obj) (k : Nat) {body : Nat → Nat → Prog} (f : Nat → Nat → ℚ)
    (hc : ∀ i j : Nat, Confined (fun a => a = ⟨o, i, j⟩) ro (body i j)) (hr : ∀ a, ro a → a.obj ≠ o)
    (h1 : ∀ i j : Nat, (body i j).run mem ⟨o, i, j⟩ = f i j) :
    Deterministic (parFor s fun i => forEach (List.range k) (body i)) mem (put2 o n k f mem) := by
  refine det_rows s (ro := ro) o (fun i => ?_) hr ?_ ?_
  · exact Confined.forEach fun j _ => (hc i j).mono fun a ha => by rw [ha]; exact ⟨rfl, rfl⟩
  · intro i a hi h h'
    have r := run_cols (ro := ro) o i (fun j => (j : Int)) (fun j k h => by exact_mod_cast h) (m := mem) k (f i) (hc i) hr (h1 i)
    obtain ⟨ao, ar, ac⟩ := a
    dsimp only at h h'
    subst h; subst h'
    unfold put2
    dsimp only
    by_cases q : 0 ≤ ac ∧ ac < k
    · rw [if_pos ⟨rfl, ⟨by omega, by omega⟩, q⟩]
      obtain ⟨j, rfl⟩ := Int.eq_ofNat_of_zero_le q.1
      exact (r.1 j (by omega)).symm
    · rw [if_neg (by rintro ⟨_, _, h⟩; exact q h)]
      refine (r.2 _ fun j hj e => ?_).symm
      injection e with _ _ e
      exact q ⟨by omega, by omega⟩
  · intro a ha
    unfold put2
    rw [if_neg]
    rintro ⟨x, y, _⟩; exact ha ⟨x, y⟩

/-- **C85, copying a two-dimensional array.** -/
theorem C85_copy2 (cast : ℚ → ℚ) (cols : Nat) :
    Deterministic (parFor s (copy2Body cast cols)) mem (put2 .data n cols (fun i j => cast (mem ⟨.src, i, j⟩)) mem) :=
  det_row_loop s mem (ro := fun a => a.obj = .src) .data cols _ (fun i j => ⟨Or.inr rfl, fun _ => ⟨rfl, trivial⟩⟩)
    (fun a h => by rw [h]; decide) (fun i j => if_pos rfl)

/-- **C85, `ReplaceNoData` of a two-dimensional raster.** -/
theorem C85_replace_layers (nd rv : ℚ) (lyrs : Nat) : Deterministic (parFor s (replace2Body nd rv lyrs)) mem
    (put2 .raster2 n lyrs (fun i l => if floatEqual (mem ⟨.raster2, i, l⟩) nd then rv else mem ⟨.raster2, i, l⟩) mem) := by
  refine det_row_loop s mem (ro := fun _ => False) .raster2 lyrs _ (fun i j => ⟨Or.inl rfl, fun v => ?_⟩) (fun _ h => h.elim) (fun i j => ?_)
  · dsimp only
    by_cases h : floatEqual v nd
    · rw [if_pos h]; exact ⟨rfl, trivial⟩
    · rw [if_neg h]; trivial
  · have e : (Prog.read ⟨.raster2, i, j⟩ fun v => if floatEqual v nd then Prog.write ⟨.raster2, i, j⟩ rv .done else .done).run mem =
        (if floatEqual (mem ⟨.raster2, i, j⟩) nd then Prog.write ⟨.raster2, i, j⟩ rv .done else .done).run mem := rfl
    rw [e]
    by_cases h : floatEqual (mem ⟨.raster2, i, j⟩) nd
    · rw [if_pos h, if_pos h]; exact if_pos rfl
    · rw [if_neg h, if_neg h]; rfl

/-- **C85, several layers from GridFS.** -/
theorem C85_gridfs_layers (pos : Bool) (lyrs : Nat) : Deterministic (parFor s (mongo2Body pos lyrs)) mem
    (put2 .raster2 n lyrs
      (fun i j => mem ⟨.layer, (if pos then (mem ⟨.posIdx, i, 0⟩).floor else i) * lyrs + j, 0⟩) mem) := by
  have hcopy : ∀ (i : Nat) (k : Int), Confined (fun a => a.obj = Obj.raster2 ∧ a.row = (i : Int)) (fun a => a.obj = .posIdx ∨ a.obj = .layer)
      (forEach (List.range lyrs) fun j => .read ⟨.layer, k * lyrs + j, 0⟩ fun v => .write ⟨.raster2, i, j⟩ v .done) := fun i k =>
    Confined.forEach fun j _ => ⟨Or.inr (Or.inr rfl), fun _ => ⟨⟨rfl, rfl⟩, trivial⟩⟩
  refine det_rows s (ro := fun a => a.obj = .posIdx ∨ a.obj = .layer) .raster2 (fun i => ?_)
    (fun a h => by rcases h with h | h <;> rw [h] <;> decide) ?_ ?_
  · cases pos with
    | true => exact ⟨Or.inr (Or.inl rfl), fun v => hcopy i v.floor⟩
    | false => exact hcopy i i
  · intro i a hi h h'
    have hrun : (mongo2Body pos lyrs i).run mem = (forEach (List.range lyrs) fun j =>
        .read ⟨.layer, (if pos then (mem ⟨.posIdx, i, 0⟩).floor else i) * lyrs + j, 0⟩ fun v => .write ⟨.raster2, i, j⟩ v .done).run mem := by
      cases pos <;> rfl
    rw [hrun]
    have r := run_cols (ro := fun a => a.obj = .layer) .raster2 i (fun j => (j : Int)) (fun j k h => by exact_mod_cast h) (m := mem) lyrs
      (fun j => mem ⟨.layer, (if pos then (mem ⟨.posIdx, i, 0⟩).floor else i) * lyrs + j, 0⟩)
      (body := fun j => .read ⟨.layer, (if pos then (mem ⟨.posIdx, i, 0⟩).floor else i) * lyrs + j, 0⟩ fun v => .write ⟨.raster2, i, j⟩ v .done)
      (fun j => ⟨Or.inr rfl, fun _ => ⟨rfl, trivial⟩⟩) (fun a h => by rw [h]; decide) (fun j => if_pos rfl)
    obtain ⟨ao, ar, ac⟩ := a
    dsimp only at h h'
    subst h; subst h'
    unfold put2
    dsimp only
    by_cases q : 0 ≤ ac ∧ ac < lyrs
    · rw [if_pos ⟨rfl, ⟨by omega, by omega⟩, q⟩]
      obtain ⟨j, rfl⟩ := Int.eq_ofNat_of_zero_le q.1
      exact (r.1 j (by omega)).symm
    · rw [if_neg (by rintro ⟨_, _, h⟩; exact q h)]
      refine (r.2 _ fun j hj e => ?_).symm
      injection e with _ _ e
      exact q ⟨by omega, by omega⟩
  · intro a ha
    unfold put2
    rw [if_neg]
    rintro ⟨x, y, _⟩; exact ha ⟨x, y⟩

/-! ## Further layers -/

theorem addOther_confined (look : Int → Int → Option Int) (nd lnd : ℚ) (lyr : Nat) (row col cell : Int) {own : Addr → Prop}
    {ro : Addr → Prop} (ho : own ⟨.raster2, cell, lyr⟩) (hr : ∀ a, a.obj = .layer → ro a) :
    Confined own ro (addOther look nd lnd lyr row col cell) := by
  unfold addOther
  split
  · exact ⟨ho, trivial⟩
  · exact ⟨Or.inr (hr _ rfl), fun _ => ⟨ho, trivial⟩⟩

theorem addOther_run (look : Int → Int → Option Int) (nd lnd : ℚ) (lyr : Nat) (row col cell : Int) (m : Mem) :
    (addOther look nd lnd lyr row col cell).run m = m.set ⟨.raster2, cell, lyr⟩ (otherVal look nd lnd m row col) := by
  unfold addOther otherVal
  cases look row col <;> rfl

/-- **C85, a further layer read at stored positions.** -/
theorem C85_other_positions (look : Int → Int → Option Int) (nd lnd : ℚ) (lyr : Nat) (cols : Int) :
    Deterministic (parFor s (otherPosBody look nd lnd lyr cols)) mem
      (putCol .raster2 n lyr (fun i => otherVal look nd lnd mem ((mem ⟨.posIdx, i, 0⟩).floor / cols) ((mem ⟨.posIdx, i, 0⟩).floor % cols)) mem) := by
  refine det_rows s (ro := fun a => a.obj = .posIdx ∨ a.obj = .layer) .raster2 (fun i => ?_)
    (fun a h => by rcases h with h | h <;> rw [h] <;> decide) ?_ ?_
  · exact ⟨Or.inr (Or.inl rfl), fun _ => ⟨Or.inr (Or.inl rfl), fun _ => addOther_confined _ _ _ _ _ _ _ ⟨rfl, rfl⟩ fun a h => Or.inr h⟩⟩
  · intro i a hi h h'
    have e : (otherPosBody look nd lnd lyr cols i).run mem =
        (addOther look nd lnd lyr ((mem ⟨.posIdx, i, 0⟩).floor / cols) ((mem ⟨.posIdx, i, 0⟩).floor % cols) i).run mem := rfl
    rw [e, addOther_run]
    obtain ⟨ao, ar, ac⟩ := a
    dsimp only at h h'
    subst h; subst h'
    unfold putCol Mem.set
    dsimp only
    by_cases q : ac = lyr
    · subst q
      rw [if_pos ⟨rfl, ⟨by omega, by omega⟩, rfl⟩, if_pos rfl]; rfl
    · rw [if_neg (by rintro ⟨_, _, h⟩; exact q h), if_neg]
      intro e; injection e with _ _ e; exact q e
  · intro a ha
    unfold putCol
    rw [if_neg]
    rintro ⟨x, y, _⟩; exact ha ⟨x, y⟩

/-- **C85, a further layer read by rows** (`n` rows of `cols` cells each). -/
theorem C85_other_rows (look : Int → Int → Option Int) (nd lnd : ℚ) (lyr cols : Nat) :
    Deterministic (parFor s (otherGridBody look nd lnd lyr cols)) mem
      (putCol .raster2 (n * cols) lyr (fun k => if floatEqual nd (mem ⟨.raster2, k, 0⟩) then nd
        else otherVal look nd lnd mem ((k / cols : Nat) : Int) ((k % cols : Nat) : Int)) mem) := by
  let step : Nat → Nat → Prog := fun i j => .read ⟨.raster2, ((i * cols + j : Nat) : Int), 0⟩ fun v =>
    if floatEqual nd v then .write ⟨.raster2, ((i * cols + j : Nat) : Int), lyr⟩ nd .done
    else addOther look nd lnd lyr i j ((i * cols + j : Nat) : Int)
  have hstep : ∀ i, otherGridBody look nd lnd lyr cols i = forEach (List.range cols) (step i) := fun _ => rfl
  have hconf : ∀ i j, Confined (fun a => a.obj = Obj.raster2 ∧ a.row = ((i * cols + j : Nat) : Int)) (fun a => a.obj = Obj.layer) (step i j) := by
    intro i j
    refine ⟨Or.inl ⟨rfl, rfl⟩, fun v => ?_⟩
    dsimp only
    by_cases h : floatEqual nd v
    · rw [if_pos h]; exact ⟨⟨rfl, rfl⟩, trivial⟩
    · rw [if_neg h]; exact addOther_confined _ _ _ _ _ _ _ ⟨rfl, rfl⟩ fun a h => h
  have hinj : ∀ i j i' j' : Nat, j < cols → j' < cols → i * cols + j = i' * cols + j' → i = i' ∧ j = j' := by
    intro i j i' j' h h' e
    have e1 : (i * cols + j) / cols = (i' * cols + j') / cols := by rw [e]
    rw [Nat.add_comm (i * cols), Nat.add_comm (i' * cols), Nat.add_mul_div_right _ _ (by omega), Nat.add_mul_div_right _ _ (by omega),
      Nat.div_eq_of_lt h, Nat.div_eq_of_lt h', zero_add, zero_add] at e1
    subst e1
    exact ⟨rfl, by omega⟩
  refine det_parFor s (own := fun i a => a.obj = .raster2 ∧ ∃ j, j < cols ∧ a.row = ((i * cols + j : Nat) : Int))
    (ro := fun a => a.obj = .layer) ?_ ?_ ?_ ?_ ?_
  · intro i
    rw [hstep]
    exact Confined.forEach fun j hj => (hconf i j).mono fun a ha => ⟨ha.1, j, List.mem_range.1 hj, ha.2⟩
  · rintro i i' a ⟨_, j, hj, e⟩ ⟨_, j', hj', e'⟩
    rw [e] at e'
    exact (hinj i j i' j' hj hj' (by exact_mod_cast e')).1
  · rintro i a ⟨h, _⟩ h'
    rw [h] at h'; exact absurd h' (by decide)
  · rintro i a hi ⟨h, j, hj, e⟩
    rw [hstep]
    have := run_iterations (own := fun j a => j < cols ∧ a.obj = Obj.raster2 ∧ a.row = ((i * cols + j : Nat) : Int)) (ro := fun a => a.obj = Obj.layer)
      (body := step i) (l := List.range cols) (m := mem)
      (by
        rintro j j' a ⟨l, _, e⟩ ⟨l', _, e'⟩
        rw [e] at e'
        exact (hinj i j i j' l l' (by exact_mod_cast e')).2)
      (by rintro j a ⟨_, h, _⟩ h'; rw [h] at h'; exact absurd h' (by decide))
      (fun j hj => (hconf i j).mono fun a ha => ⟨List.mem_range.1 hj, ha⟩) List.nodup_range j (List.mem_range.2 hj) a ⟨hj, h, e⟩
    rw [this]
    have hv : (step i j).run mem = mem.set ⟨.raster2, ((i * cols + j : Nat) : Int), lyr⟩
        (if floatEqual nd (mem ⟨.raster2, ((i * cols + j : Nat) : Int), 0⟩) then nd else otherVal look nd lnd mem i j) := by
      have e : (step i j).run mem = (if floatEqual nd (mem ⟨.raster2, ((i * cols + j : Nat) : Int), 0⟩)
          then Prog.write ⟨.raster2, ((i * cols + j : Nat) : Int), lyr⟩ nd .done
          else addOther look nd lnd lyr i j ((i * cols + j : Nat) : Int)).run mem := rfl
      rw [e]
      by_cases h : floatEqual nd (mem ⟨.raster2, ((i * cols + j : Nat) : Int), 0⟩)
      · rw [if_pos h, if_pos h]; rfl
      · rw [if_neg h, if_neg h, addOther_run]
    rw [hv]
    obtain ⟨ao, ar, ac⟩ := a
    dsimp only at h e
    subst h; subst e
    unfold putCol Mem.set
    dsimp only
    have hlt : i * cols + j < n * cols := by
      have : (i + 1) * cols ≤ n * cols := Nat.mul_le_mul_right _ hi
      rw [Nat.add_mul, Nat.one_mul] at this; omega
    have hdiv : (i * cols + j) / cols = i := by
      rw [Nat.add_comm, Nat.add_mul_div_right _ _ (by omega), Nat.div_eq_of_lt hj, zero_add]
    have hmod : (i * cols + j) % cols = j := by
      rw [Nat.add_comm, Nat.add_mul_mod_self_right, Nat.mod_eq_of_lt hj]
    by_cases q : ac = lyr
    · subst q
      rw [if_pos ⟨rfl, ⟨by omega, by exact_mod_cast hlt⟩, rfl⟩, if_pos rfl, Int.toNat_natCast, hdiv, hmod]
    · rw [if_neg (by rintro ⟨_, _, h⟩; exact q h), if_neg]
      intro e; injection e with _ _ e; exact q e
  · intro a ha
    unfold putCol
    rw [if_neg]
    rintro ⟨x, ⟨y1, y2⟩, _⟩
    obtain ⟨k, hk⟩ := Int.eq_ofNat_of_zero_le y1
    rw [hk] at y2
    have hk2 : k < n * cols := by exact_mod_cast y2
    have hcols : 0 < cols := by
      rcases Nat.eq_zero_or_pos cols with h | h
      · rw [h, Nat.mul_zero] at hk2; omega
      · exact h
    refine ha (k / cols) ((Nat.div_lt_iff_lt_mul hcols).2 hk2) ⟨x, k % cols, Nat.mod_lt _ hcols, ?_⟩
    rw [hk]
    have := Nat.div_add_mod k cols
    rw [Nat.mul_comm] at this
    exact_mod_cast this.symm

/-! ## Storing the valid cells -/

theorem storePos_confined (ncols : ℚ) (i : Nat) {own ro : Addr → Prop}
    (h1 : own ⟨.posRow, i, 0⟩) (h2 : own ⟨.posCol, i, 0⟩) (h3 : own ⟨.posIdx, i, 0⟩) (r1 : ro ⟨.rows, i, 0⟩) (r2 : ro ⟨.cols, i, 0⟩) :
    Confined own ro (storePos ncols i) :=
  ⟨Or.inr r1, fun _ => ⟨h1, Or.inr r2, fun _ => ⟨h2, Or.inr r1, fun _ => ⟨Or.inr r2, fun _ => ⟨h3, trivial⟩⟩⟩⟩⟩

theorem storePos_run (ncols : ℚ) (i : Nat) (m : Mem) : (storePos ncols i).run m =
    ((m.set ⟨.posRow, i, 0⟩ (m ⟨.rows, i, 0⟩)).set ⟨.posCol, i, 0⟩ (m ⟨.cols, i, 0⟩)).set ⟨.posIdx, i, 0⟩
      (m ⟨.rows, i, 0⟩ * ncols + m ⟨.cols, i, 0⟩) := rfl

theorem put_self (o : Obj) {n i : Nat} (hi : i < n) (f : Nat → ℚ) (m : Mem) : put o n f m ⟨o, i, 0⟩ = f i := by
  unfold put put2
  rw [if_pos ⟨rfl, ⟨by dsimp only; omega, by dsimp only; omega⟩, by dsimp only; omega, by dsimp only; omega⟩]; rfl

theorem put_obj (o : Obj) (n : Nat) (f : Nat → ℚ) (m : Mem) (a : Addr) (h : a.obj ≠ o) : put o n f m a = m a := by
  unfold put put2
  rw [if_neg (by rintro ⟨x, _⟩; exact h x)]

theorem put_row (o : Obj) (n : Nat) (f : Nat → ℚ) (m : Mem) (a : Addr) (h : ¬ (0 ≤ a.row ∧ a.row < n)) : put o n f m a = m a := by
  unfold put put2
  rw [if_neg (by rintro ⟨_, x, _⟩; exact h x)]

theorem put_col (o : Obj) (n : Nat) (f : Nat → ℚ) (m : Mem) (a : Addr) (h : a.col ≠ 0) : put o n f m a = m a := by
  unfold put put2
  rw [if_neg (by rintro ⟨_, _, x, y⟩; exact h (by omega))]

theorem set_ne (m : Mem) {a b : Addr} (v : ℚ) (h : b ≠ a) : m.set a v b = m b := if_neg h

/-- The own data of an iteration that stores a cell in array `o`. -/
def Own4 (o : Obj) (i : Nat) (a : Addr) : Prop := (a.obj = o ∨ a.obj = .posRow ∨ a.obj = .posCol ∨ a.obj = .posIdx) ∧ a.row = (i : Int)

theorem gather_pos {n : Nat} {i : Nat} (hi : i < n) (ncols : ℚ) (mem m m' : Mem) (o : Obj)
    (ho : o ≠ .posRow ∧ o ≠ .posCol ∧ o ≠ .posIdx)
    (hr : m ⟨.rows, i, 0⟩ = mem ⟨.rows, i, 0⟩) (hcl : m ⟨.cols, i, 0⟩ = mem ⟨.cols, i, 0⟩)
    (hm : ∀ a, a.row = (i : Int) → a.obj = .posRow ∨ a.obj = .posCol ∨ a.obj = .posIdx → m a = mem a)
    (hm' : ∀ a, a.obj = .posRow ∨ a.obj = .posCol ∨ a.obj = .posIdx → m' a = mem a)
    (hmm : ∀ a, a.obj = o → a.row = (i : Int) → m' a = m a)
    (a : Addr) (ha : Own4 o i a) : putPos n ncols mem m' a = (storePos ncols i).run m a := by
  rw [storePos_run, hr, hcl]
  obtain ⟨ao, ar, ac⟩ := a
  obtain ⟨ha, hrow⟩ := ha
  dsimp only at ha hrow
  subst hrow
  unfold putPos
  rcases ha with h | h | h | h
  · subst h
    rw [put_obj _ _ _ _ _ ho.1, put_obj _ _ _ _ _ ho.2.1, put_obj _ _ _ _ _ ho.2.2,
      set_ne _ _ (fun e => ho.2.2 (by injection e)), set_ne _ _ (fun e => ho.2.1 (by injection e)), set_ne _ _ (fun e => ho.1 (by injection e))]
    exact hmm _ rfl rfl
  · subst h
    rw [set_ne _ _ (by intro e; injection e with e; cases e), set_ne _ _ (by intro e; injection e with e; cases e)]
    by_cases q : ac = 0
    · subst q; rw [put_self _ hi]; exact (if_pos rfl).symm
    · rw [put_col _ _ _ _ _ q, put_col _ _ _ _ _ q, put_col _ _ _ _ _ q, set_ne _ _ (by intro e; injection e with _ _ e; exact q e),
        hm' _ (Or.inl rfl), hm _ rfl (Or.inl rfl)]
  · subst h
    rw [put_obj _ _ _ _ _ (by simp), set_ne _ _ (by intro e; injection e with e; cases e)]
    by_cases q : ac = 0
    · subst q; rw [put_self _ hi]; exact (if_pos rfl).symm
    · rw [put_col _ _ _ _ _ q, put_col _ _ _ _ _ q, set_ne _ _ (by intro e; injection e with _ _ e; exact q e),
        set_ne _ _ (by intro e; injection e with e; cases e), hm' _ (Or.inr (Or.inl rfl)), hm _ rfl (Or.inr (Or.inl rfl))]
  · subst h
    rw [put_obj _ _ _ _ _ (by simp), put_obj _ _ _ _ _ (by simp)]
    by_cases q : ac = 0
    · subst q; rw [put_self _ hi]; exact (if_pos rfl).symm
    · rw [put_col _ _ _ _ _ q, set_ne _ _ (by intro e; injection e with _ _ e; exact q e), set_ne _ _ (by intro e; injection e with e; cases e),
        set_ne _ _ (by intro e; injection e with e; cases e), hm' _ (Or.inr (Or.inr rfl)), hm _ rfl (Or.inr (Or.inr rfl))]

theorem putPos_other (n : Nat) (ncols : ℚ) (mem m : Mem) (a : Addr)
    (h : ¬ ((a.obj = .posRow ∨ a.obj = .posCol ∨ a.obj = .posIdx) ∧ 0 ≤ a.row ∧ a.row < n)) : putPos n ncols mem m a = m a := by
  unfold putPos
  by_cases q : 0 ≤ a.row ∧ a.row < n
  · rw [put_obj _ _ _ _ _ (fun e => h ⟨Or.inl e, q⟩), put_obj _ _ _ _ _ (fun e => h ⟨Or.inr (Or.inl e), q⟩),
      put_obj _ _ _ _ _ (fun e => h ⟨Or.inr (Or.inr e), q⟩)]
  · rw [put_row _ _ _ _ _ q, put_row _ _ _ _ _ q, put_row _ _ _ _ _ q]

/-- What the storing loops read only. -/
def RoGather (a : Addr) : Prop := a.obj = .rows ∨ a.obj = .cols ∨ a.obj = .values ∨ a.obj = .values2

theorem own4_ro (o : Obj) (ho : o = .raster ∨ o = .raster2) (i : Nat) (a : Addr) (h : Own4 o i a) : ¬ RoGather a := by
  rintro q
  obtain ⟨h, _⟩ := h
  rcases ho with rfl | rfl <;> rcases h with h | h | h | h <;> rcases q with q | q | q | q <;> rw [h] at q <;> cases q

/-- **C85, storing the valid cells of one layer with their positions.** -/
theorem C85_store_one (ncols : ℚ) : Deterministic (parFor s (gather1Body ncols)) mem
    (putPos n ncols mem (put .raster n (fun i => mem ⟨.values, i, 0⟩) mem)) := by
  refine det_parFor s (own := Own4 .raster) (ro := RoGather) ?_ ?_ (own4_ro _ (Or.inl rfl)) ?_ ?_
  · intro i
    exact ⟨Or.inr (Or.inr (Or.inr (Or.inl rfl))), fun v => ⟨⟨Or.inl rfl, rfl⟩, storePos_confined _ _ ⟨Or.inr (Or.inl rfl), rfl⟩
      ⟨Or.inr (Or.inr (Or.inl rfl)), rfl⟩ ⟨Or.inr (Or.inr (Or.inr rfl)), rfl⟩ (Or.inl rfl) (Or.inr (Or.inl rfl))⟩⟩
  · rintro i j a ⟨_, h⟩ ⟨_, h'⟩; omega
  · intro i a hi ha
    have e : (gather1Body ncols i).run mem = (storePos ncols i).run (mem.set ⟨.raster, i, 0⟩ (mem ⟨.values, i, 0⟩)) := rfl
    rw [e]
    refine gather_pos hi ncols mem _ _ .raster (by decide) (set_ne _ _ (by simp)) (set_ne _ _ (by simp)) ?_ ?_ ?_ a ha
    · intro b _ hb
      refine set_ne _ _ ?_
      intro e; subst e
      rcases hb with hb | hb | hb <;> cases hb
    · intro b hb
      refine put_obj _ _ _ _ _ ?_
      intro e; rw [e] at hb
      rcases hb with hb | hb | hb <;> cases hb
    · rintro ⟨bo, br, bc⟩ hb hb'
      dsimp only at hb hb'
      subst hb; subst hb'
      by_cases q : bc = 0
      · subst q; rw [put_self _ hi]; exact (if_pos rfl).symm
      · rw [put_col _ _ _ _ _ q, set_ne _ _ (by intro e; injection e with _ _ e; exact q e)]
  · intro a ha
    have h : ∀ o', (a.obj = o' ∧ 0 ≤ a.row ∧ a.row < n) → (o' = Obj.raster ∨ o' = .posRow ∨ o' = .posCol ∨ o' = .posIdx) → False := by
      rintro o' ⟨h1, h2, h3⟩ h4
      refine ha a.row.toNat (by omega) ⟨?_, by omega⟩
      rw [h1]; exact h4
    rw [putPos_other]
    · by_cases q : 0 ≤ a.row ∧ a.row < n
      · exact put_obj _ _ _ _ _ fun e => h _ ⟨e, q⟩ (Or.inl rfl)
      · exact put_row _ _ _ _ _ q
    · rintro ⟨h1, h2⟩
      exact h _ ⟨rfl, h2⟩ (Or.inr h1)

/-- **C85, storing the valid cells of several layers with their positions.** -/
theorem C85_store_layers (ncols : ℚ) (lyrs : Nat) (hl : 1 ≤ lyrs) : Deterministic (parFor s (gather2Body ncols lyrs)) mem
    (putPos n ncols mem (put2 .raster2 n lyrs
      (fun i l => if l = 0 then mem ⟨.values, i, 0⟩ else mem ⟨.values2, i, ((l - 1 : Nat) : Int)⟩) mem)) := by
  let step : Nat → Nat → Prog := fun i l => .read ⟨.values2, i, l⟩ fun v => .write ⟨.raster2, i, ((l + 1 : Nat) : Int)⟩ v .done
  refine det_parFor s (own := Own4 .raster2) (ro := RoGather) ?_ ?_ (own4_ro _ (Or.inr rfl)) ?_ ?_
  · intro i
    refine ⟨Or.inr (Or.inr (Or.inr (Or.inl rfl))), fun v => ⟨⟨Or.inl rfl, rfl⟩, Confined.seq (storePos_confined _ _ ⟨Or.inr (Or.inl rfl), rfl⟩
      ⟨Or.inr (Or.inr (Or.inl rfl)), rfl⟩ ⟨Or.inr (Or.inr (Or.inr rfl)), rfl⟩ (Or.inl rfl) (Or.inr (Or.inl rfl))) ?_⟩⟩
    exact Confined.forEach fun l _ => ⟨Or.inr (Or.inr (Or.inr (Or.inr rfl))), fun _ => ⟨⟨Or.inl rfl, rfl⟩, trivial⟩⟩
  · rintro i j a ⟨_, h⟩ ⟨_, h'⟩; omega
  · intro i a hi ha
    have e : (gather2Body ncols lyrs i).run mem =
        (storePos ncols i).run ((forEach (List.range (lyrs - 1)) (step i)).run (mem.set ⟨.raster2, i, 0⟩ (mem ⟨.values, i, 0⟩))) :=
      run_seq _ _ _
    rw [e]
    have r := run_cols (ro := fun a => a.obj = .values2) .raster2 i (fun l => ((l + 1 : Nat) : Int)) (fun j k h => by omega)
      (m := mem.set ⟨.raster2, i, 0⟩ (mem ⟨.values, i, 0⟩)) (lyrs - 1) (fun l => mem ⟨.values2, i, l⟩) (body := step i)
      (fun j => ⟨Or.inr rfl, fun _ => ⟨rfl, trivial⟩⟩) (fun a h => by rw [h]; decide)
      (fun j => if_pos rfl)
    generalize hM : (forEach (List.range (lyrs - 1)) (step i)).run (mem.set ⟨.raster2, i, 0⟩ (mem ⟨.values, i, 0⟩)) = M at r ⊢
    have hother : ∀ b : Addr, b.obj ≠ .raster2 → M b = mem b := by
      intro b hb
      rw [r.2 b (fun j _ e => hb (by rw [e])), set_ne _ _ (fun e => hb (by rw [e]))]
    refine gather_pos hi ncols mem _ _ .raster2 (by decide) (hother _ (by simp)) (hother _ (by simp)) ?_ ?_ ?_ a ha
    · intro b _ hb
      refine hother b ?_
      intro e; rw [e] at hb
      rcases hb with hb | hb | hb <;> cases hb
    · intro b hb
      unfold put2
      refine if_neg ?_
      rintro ⟨e, _⟩; rw [e] at hb
      rcases hb with hb | hb | hb <;> cases hb
    · rintro ⟨bo, br, bc⟩ hb hb'
      dsimp only at hb hb'
      subst hb; subst hb'
      unfold put2
      dsimp only
      by_cases q : 0 ≤ bc ∧ bc < lyrs
      · rw [if_pos ⟨rfl, ⟨by omega, by omega⟩, q⟩]
        obtain ⟨l, rfl⟩ := Int.eq_ofNat_of_zero_le q.1
        rw [Int.toNat_natCast]
        cases l with
        | zero =>
          rw [if_pos (by rfl), r.2 _ (by intro j _ e; injection e with _ _ e; omega)]
          exact (if_pos rfl).symm
        | succ l =>
          rw [if_neg (by omega)]
          exact (r.1 l (by omega)).symm
      · rw [if_neg (by rintro ⟨_, _, h⟩; exact q h), r.2 _ (by intro j hj e; injection e with _ _ e; exact q ⟨by omega, by omega⟩), set_ne]
        intro e; injection e with _ _ e; exact q ⟨by omega, by omega⟩
  · intro a ha
    have h : ∀ o', (a.obj = o' ∧ 0 ≤ a.row ∧ a.row < n) → (o' = Obj.raster2 ∨ o' = .posRow ∨ o' = .posCol ∨ o' = .posIdx) → False := by
      rintro o' ⟨h1, h2, h3⟩ h4
      refine ha a.row.toNat (by omega) ⟨?_, by omega⟩
      rw [h1]; exact h4
    rw [putPos_other]
    · unfold put2
      refine if_neg ?_
      rintro ⟨h1, h2, _⟩
      exact h _ ⟨h1, h2⟩ (Or.inl rfl)
    · rintro ⟨h1, h2⟩
      exact h _ ⟨rfl, h2⟩ (Or.inr h1)

end CCGL.Par
