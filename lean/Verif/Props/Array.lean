import Verif.Lemmas.Array
/-!
# C40-C43: arrays and vectors
-/
namespace CCGL.Arr
open Spec
variable {τ σ : Type}

/-! ## C40 -/

/-- C40: in every reachable memory no block is lost and no pointer is stale. -/
theorem C40_safe_partial (m : Mem τ) (h : Reachable m) : NoLeak m ∧ NoDangling m := ⟨h.inv.noLeak, h.inv.noDangling⟩

/-- C40: releasing any one-dimensional array (or null pointer) is defined, nulls the pointer, leaves the others. -/
theorem C40_release1 (m : Mem τ) (h : Reachable m) (v : Nat) :
    ∃ m', rel1 m v = .ok m' ∧ m'.p1 v = none ∧ (∀ w, w ≠ v → m'.p1 w = m.p1 w) ∧ m'.p2 = m.p2 := by
  obtain ⟨m', h1, _, h2, h3, h4⟩ := h.inv.rel1 v
  exact ⟨m', h1, h2, h3, h4⟩

/-- C40: likewise for two-dimensional arrays. -/
theorem C40_release2 (m : Mem τ) (h : Reachable m) (v : Nat) :
    ∃ m', rel2 m v = .ok m' ∧ m'.p2 v = none ∧ (∀ w, w ≠ v → m'.p2 w = m.p2 w) ∧ m'.p1 = m.p1 := by
  obtain ⟨m', h1, _, h2, h3, h4⟩ := h.inv.rel2 v
  exact ⟨m', h1, h2, h3, h4⟩

/-- C40: a request is defined for every size (of at most 2^31-1 cells) and every failure of allocation. -/
theorem C40_request (m : Mem τ) (v : Nat) (row col : Int) (x : τ) (ok ok' : Bool)
    (hn : -(2 ^ 31) ≤ row * col ∧ row * col < 2 ^ 31) : ∃ f m', init2 m v row col x ok ok' = .ok (f, m') := by
  unfold init2
  cases m.p2 v with
  | some b => exact ⟨_, _, rfl⟩
  | none =>
    simp only
    split_ifs with h1
    · exact ⟨_, _, rfl⟩
    · unfold mulInt
      rw [if_pos hn, Out.ok_bind]
      split_ifs <;> exact ⟨_, _, rfl⟩

/-- C40: a request for a 1D array of length zero or less is refused: the pointer stays null and no memory is taken. -/
theorem C40_refused (m : Mem τ) (v : Nat) (row : Int) (x : τ) (ok : Bool) (hv : m.p1 v = none) (hr : row ≤ 0) :
    (init1 m v row x ok).1 = false ∧ (init1 m v row x ok).2.p1 v = none ∧ (init1 m v row x ok).2.heap = m.heap := by
  unfold init1
  rw [hv]
  dsimp only
  rw [if_pos hr]
  exact ⟨rfl, by simp [upd], rfl⟩

example : (init1 (Mem.init : Mem Int) 0 0 7 true).1 = false := (C40_refused Mem.init 0 0 7 true rfl (le_refl _)).1

/-- A second request on a non-null pointer changes nothing and reports failure. -/
theorem C40_nonnull (m : Mem τ) (v b : Nat) (row col : Int) (x : τ) (ok ok' : Bool) :
    (m.p1 v = some b → init1 m v row x ok = (false, m)) ∧
    (m.p2 v = some b → init2 m v row col x ok ok' = .ok (false, m)) := by
  constructor <;> intro h
  · unfold init1; rw [h]
  · unfold init2; rw [h]

/-- C40: when all pointers are null, no block is left. -/
theorem C40_empty (m : Mem τ) (h : Reachable m) (h1 : ∀ v, m.p1 v = none) (h2 : ∀ v, m.p2 v = none) (b : Nat) :
    m.heap b = none := by
  by_contra hb
  rcases h.inv.noLeak b hb with ⟨v, h⟩ | ⟨v, h⟩ | ⟨v, r, ps, i, off, h, _⟩
  · rw [h1] at h; cases h
  · rw [h2] at h; cases h
  · rw [h2] at h; cases h

theorem relAll1 (vs : List Nat) : ∀ (m : Mem τ), Reachable m → ∃ m', vs.foldlM rel1 m = .ok m' ∧ Reachable m' ∧
    (∀ v, v ∈ vs → m'.p1 v = none) ∧ (∀ v, m.p1 v = none → m'.p1 v = none) ∧ m'.p2 = m.p2 := by
  induction vs with
  | nil => intro m h; exact ⟨m, rfl, h, by simp, fun _ h => h, rfl⟩
  | cons v vs ih =>
    intro m h
    obtain ⟨m1, e1, n1, o1, q1⟩ := C40_release1 m h v
    obtain ⟨m2, e2, r2, n2, o2, q2⟩ := ih m1 (.rel1 h v e1)
    refine ⟨m2, ?_, r2, ?_, ?_, by rw [q2, q1]⟩
    · rw [List.foldlM_cons, e1]; exact e2
    · intro w hw
      rcases List.mem_cons.1 hw with rfl | hw
      · exact o2 _ n1
      · exact n2 w hw
    · intro w hw
      apply o2
      by_cases e : w = v
      · subst e; exact n1
      · rw [o1 w e]; exact hw

theorem relAll2 (vs : List Nat) : ∀ (m : Mem τ), Reachable m → ∃ m', vs.foldlM rel2 m = .ok m' ∧ Reachable m' ∧
    (∀ v, v ∈ vs → m'.p2 v = none) ∧ (∀ v, m.p2 v = none → m'.p2 v = none) ∧ m'.p1 = m.p1 := by
  induction vs with
  | nil => intro m h; exact ⟨m, rfl, h, by simp, fun _ h => h, rfl⟩
  | cons v vs ih =>
    intro m h
    obtain ⟨m1, e1, n1, o1, q1⟩ := C40_release2 m h v
    obtain ⟨m2, e2, r2, n2, o2, q2⟩ := ih m1 (.rel2 h v e1)
    refine ⟨m2, ?_, r2, ?_, ?_, by rw [q2, q1]⟩
    · rw [List.foldlM_cons, e1]; exact e2
    · intro w hw
      rcases List.mem_cons.1 hw with rfl | hw
      · exact o2 _ n1
      · exact n2 w hw
    · intro w hw
      apply o2
      by_cases e : w = v
      · subst e; exact n1
      · rw [o1 w e]; exact hw

/-- C40: releasing every pointer, each once or more often, in any order within a kind, is defined and leaves no
block. -/
theorem C40_release_all (m : Mem τ) (h : Reachable m) (vs ws : List Nat) (hv : ∀ v, m.p1 v ≠ none → v ∈ vs)
    (hw : ∀ v, m.p2 v ≠ none → v ∈ ws) :
    ∃ m1 m2, vs.foldlM rel1 m = .ok m1 ∧ ws.foldlM rel2 m1 = .ok m2 ∧ ∀ b, m2.heap b = none := by
  obtain ⟨m1, e1, r1, n1, o1, q1⟩ := relAll1 vs m h
  obtain ⟨m2, e2, r2, n2, o2, q2⟩ := relAll2 ws m1 r1
  refine ⟨m1, m2, e1, e2, C40_empty m2 r2 ?_ ?_⟩
  · intro v
    rw [q2]
    by_cases hc : m.p1 v = none
    · exact o1 v hc
    · exact n1 v (hv v hc)
  · intro v
    by_cases hc : m.p2 v = none
    · exact o2 v (by rw [q1]; exact hc)
    · exact n2 v (hw v hc)

/-- C40 is false of two-dimensional arrays without rows: releasing one reads past its end. -/
theorem C40_false_zero_rows (col : Int) (x : τ) :
    ∃ m', init2 Mem.init 0 0 col x true true = .ok (true, m') ∧ rel2 m' 0 = .ub := by
  have h : mulInt 0 col = .ok 0 := by unfold mulInt; simp
  unfold init2
  simp only [Mem.init]
  rw [if_neg (by simp), h, Out.ok_bind]
  exact ⟨_, rfl, rfl⟩

/-- C40 is false when the data block cannot be allocated (or the column number is negative): the request reports
failure but leaves a pointer that cannot be released. -/
theorem C40_false_pool (row col : Int) (x : τ) (hr : 0 < row) (ok' : Bool) (hbad : ok' = false ∨ col < 0)
    (hn : -(2 ^ 31) ≤ row * col ∧ row * col < 2 ^ 31) :
    ∃ m', init2 Mem.init 0 row col x true ok' = .ok (false, m') ∧ m'.p2 0 ≠ none ∧ rel2 m' 0 = .ub := by
  have h : mulInt row col = .ok (row * col) := by unfold mulInt; rw [if_pos hn]
  have hc : row * col < 0 ∨ (!ok') = true := by
    rcases hbad with rfl | hb
    · right; rfl
    · left; exact mul_neg_of_pos_of_neg hr hb
  unfold init2
  simp only [Mem.init]
  rw [if_neg (by simp; omega), h, Out.ok_bind]
  rw [if_pos hc]
  refine ⟨_, rfl, by simp, ?_⟩
  obtain ⟨k, hk⟩ := Nat.exists_eq_succ_of_ne_zero (show row.toNat ≠ 0 by omega)
  rw [hk]
  rfl

/-- C40 is false of `BatchRelease1DArray`: it stops at the first null pointer and leaves the rest allocated, and the
caller's copies of the released pointers are stale: releasing them is a double free. -/
theorem C40_false_batch (x : τ) : ∃ m m1 m2 : Mem τ, Reachable m ∧
    batchRel1 m 0 [1, 2] = .ok m1 ∧ m.p1 1 = none ∧ m1.p1 2 ≠ none ∧ (∃ b, m1.p1 2 = some b ∧ m1.heap b ≠ none) ∧
    batchRel1 m 0 [2] = .ok m2 ∧ rel1 m2 2 = .ub := by
  have hr : Reachable (init1 (init1 (Mem.init : Mem τ) 0 1 x true).2 2 1 x true).2 :=
    .init1 (.init1 .start 0 1 x true true rfl) 2 1 x true true rfl
  refine ⟨_, _, _, hr, rfl, rfl, ?_, ⟨1, rfl, ?_⟩, rfl, rfl⟩
  · intro h; cases h
  · intro h; cases h

/-- C40 is false of arrays read by `Read2DArrayFromString` (or from a file): rows are separate blocks and
`Release2DArray` deletes only the first. -/
theorem C40_false_read2D : ∃ m m' : Mem Int, read2D Mem.init 0 [2, 1, 5, 1, 6] = .ok (2, m) ∧
    rel2 m 0 = .ok m' ∧ m'.p2 0 = none ∧ m'.heap 1 ≠ none :=
  ⟨_, _, rfl, rfl, rfl, by intro h; cases h⟩

/-! ## C41 -/

theorem load_filled (m : Mem τ) (b n i : Nat) (x : τ) (h : m.heap b = some (filled n x)) (hi : i < n) :
    m.load b i = .ok x := by
  unfold Mem.load
  rw [h]
  simp [filled, List.getElem?_replicate, hi]

theorem cell_lt {r c i j : Nat} (hi : i < r) (hj : j < c) : i * c + j < r * c := by
  have : (i + 1) * c ≤ r * c := Nat.mul_le_mul_right _ hi
  have e : (i + 1) * c = i * c + c := by ring
  omega

/-- C41: the new array has all its cells in one block of rows*cols elements, row after row, and every cell holds the
initial value. -/
theorem C41_init (m : Mem τ) (v r c : Nat) (x : τ) (hv : m.p2 v = none) (hn : r * c < 2 ^ 31) :
    ∃ m', init2 m v r c x true true = .ok (true, m') ∧ Grid m' v r c ∧
      ∀ i j, i < r → j < c → get2 m' v i j = .ok x := by
  have hz : mulInt (r : Int) (c : Int) = .ok ((r * c : Nat) : Int) := by
    unfold mulInt
    rw [if_pos]
    · push_cast; rfl
    · constructor
      · have : (0 : Int) ≤ (r : Int) * c := by positivity
        omega
      · exact_mod_cast hn
  have ha : ∀ i j, i < r → addr2 ({ (m.push (.ptrs (rowPtrs (m.next + 1) c 0 r))).push (filled (r * c) x) with
      p2 := upd m.p2 v (some m.next) } : Mem τ) v i j = .ok (m.next + 1, i * c + j) := by
    intro i j hi
    unfold addr2
    simp only [upd_same]
    show (match upd (upd m.heap m.next _) (m.next + 1) _ m.next with | some (.ptrs ps) => _ | _ => _) = _
    rw [upd_ne _ _ _ (by omega), upd_same]
    simp only
    rw [rowPtrs_get, if_pos hi]
    simp
  have hh : ({ (m.push (.ptrs (rowPtrs (m.next + 1) c 0 r))).push (filled (r * c) x) with
      p2 := upd m.p2 v (some m.next) } : Mem τ).heap (m.next + 1) = some (filled (r * c) x) := by
    show upd _ (m.next + 1) _ (m.next + 1) = _
    rw [upd_same]
  refine ⟨{ (m.push (.ptrs (rowPtrs (m.next + 1) c 0 r))).push (filled (r * c) x) with
      p2 := upd m.p2 v (some m.next) }, ?_, ⟨m.next + 1, _, hh, by simp, fun i hi j => ha i j hi⟩, ?_⟩
  · unfold init2
    rw [hv]
    simp only
    rw [if_neg (by simp), hz, Out.ok_bind]
    rw [if_neg (by simp; positivity)]
    rw [Int.toNat_natCast, Int.toNat_natCast, Int.toNat_natCast]
  · intro i j hi hj
    unfold get2
    rw [ha i j hi, Out.ok_bind]
    exact load_filled _ _ _ _ _ hh (cell_lt hi hj)

/-- C41: distinct cells have distinct addresses. -/
theorem C41_injective (m : Mem τ) (v r c i j i' j' : Nat) (h : Grid m v r c) (hi : i < r) (hj : j < c) (hi' : i' < r)
    (hj' : j' < c) (he : addr2 m v i j = addr2 m v i' j') : i = i' ∧ j = j' := by
  obtain ⟨q, xs, _, _, ha⟩ := h
  rw [ha i hi, ha i' hi'] at he
  injection he with he
  have he := (Prod.mk.inj he).2
  have hc : 0 < c := by omega
  have h1 : i = i' := by
    have e1 : (i * c + j) / c = i := by
      rw [add_comm, Nat.add_mul_div_right _ _ hc, Nat.div_eq_of_lt hj]; simp
    have e2 : (i' * c + j') / c = i' := by
      rw [add_comm, Nat.add_mul_div_right _ _ hc, Nat.div_eq_of_lt hj']; simp
    rw [← e1, he, e2]
  subst h1
  exact ⟨rfl, by omega⟩

/-- C41: rows are at distance `c` in the same block. -/
theorem C41_rows (m : Mem τ) (v r c : Nat) (h : Grid m v r c) :
    ∃ q, ∀ i, i < r → addr2 m v i 0 = .ok (q, i * c) := by
  obtain ⟨q, xs, _, _, ha⟩ := h
  exact ⟨q, fun i hi => by rw [ha i hi]; simp⟩

theorem store_spec {m : Mem τ} {b i : Nat} {xs : List (Option τ)} (hb : m.heap b = some (.vals xs)) (hi : i < xs.length)
    (x : τ) : m.store b i x = .ok { m with heap := upd m.heap b (some (.vals (xs.set i (some x)))) } := by
  unfold Mem.store; rw [hb]; simp [hi]

theorem addr2_store {m m' : Mem τ} {b k : Nat} {x : τ} (h : m.store b k x = .ok m') (w i j : Nat) :
    addr2 m' w i j = addr2 m w i j := by
  unfold Mem.store at h
  cases hb : m.heap b with
  | none => rw [hb] at h; cases h
  | some blk =>
    rw [hb] at h
    cases blk with
    | ptrs ps => cases h
    | vals xs =>
      simp only at h
      split_ifs at h
      injection h with h
      subst h
      unfold addr2
      simp only
      cases hp : m.p2 w with
      | none => rfl
      | some r =>
        simp only
        by_cases e : r = b
        · subst e; rw [upd_same, hb]
        · rw [upd_ne _ _ _ e]

theorem load_store {m m' : Mem τ} {b k : Nat} {x : τ} (h : m.store b k x = .ok m') (b' k' : Nat) :
    m'.load b' k' = if b' = b ∧ k' = k then .ok x else m.load b' k' := by
  unfold Mem.store at h
  cases hb : m.heap b with
  | none => rw [hb] at h; cases h
  | some blk =>
    rw [hb] at h
    cases blk with
    | ptrs ps => cases h
    | vals xs =>
      simp only at h
      split_ifs at h with hl
      injection h with h
      subst h
      unfold Mem.load
      simp only
      by_cases e : b' = b
      · subst e
        rw [upd_same, hb]
        simp only [true_and]
        by_cases ek : k' = k
        · subst ek
          rw [if_pos rfl, List.getElem?_set_self hl]
        · rw [if_neg ek, List.getElem?_set_ne (fun h => ek h.symm)]
      · rw [upd_ne _ _ _ e, if_neg (fun h => e h.1)]

/-- C41: a cell within the array can be written; afterwards it holds the value and all others are unchanged. -/
theorem C41_write (m : Mem τ) (v r c i j : Nat) (x : τ) (h : Grid m v r c) (hi : i < r) (hj : j < c) :
    ∃ m', set2 m v i j x = .ok m' ∧ Grid m' v r c ∧
      ∀ i' j', i' < r → j' < c → get2 m' v i' j' = if i' = i ∧ j' = j then .ok x else get2 m v i' j' := by
  have h0 := h
  obtain ⟨q, xs, hq, hl, ha⟩ := h
  have hs := store_spec hq (show i * c + j < xs.length by rw [hl]; exact cell_lt hi hj) x
  refine ⟨{ m with heap := upd m.heap q (some (.vals (xs.set (i * c + j) (some x)))) }, ?_, ?_, ?_⟩
  · unfold set2; rw [ha i hi, Out.ok_bind]; exact hs
  · exact ⟨q, xs.set (i * c + j) (some x), by simp, by simpa using hl, fun i' hi' j' => by
      rw [addr2_store hs]; exact ha i' hi' j'⟩
  · intro i' j' hi' hj'
    unfold get2
    rw [addr2_store hs, ha i' hi', Out.ok_bind, Out.ok_bind]
    simp only
    rw [load_store hs]
    by_cases e : i' = i ∧ j' = j
    · obtain ⟨rfl, rfl⟩ := e
      rw [if_pos ⟨rfl, rfl⟩, if_pos ⟨rfl, rfl⟩]
    · rw [if_neg e, if_neg]
      rintro ⟨_, he⟩
      apply e
      exact C41_injective m v r c i' j' i j h0 hi' hj' hi hj (by rw [ha i' hi', ha i hi, he])

theorem addr2_pool {m : Mem τ} (hi : Inv m) {v i j : Nat} {a : Nat × Nat} (h : addr2 m v i j = .ok a) :
    PoolOf m v a.1 := by
  unfold addr2 at h
  cases hv : m.p2 v with
  | none => rw [hv] at h; cases h
  | some b =>
    rw [hv] at h
    obtain ⟨q, hq⟩ := hi.two v b hv
    have hq0 := hq
    obtain ⟨b', ps, h1, h2, h3⟩ := hq
    rw [hv] at h1; injection h1 with h1; subst h1
    simp only at h
    rw [h2] at h
    simp only at h
    have : ∀ p, (some (q, 0) :: ps)[i]? = some p → ∃ o, p = some (q, o) := by
      intro p hp
      rcases List.mem_cons.1 (List.mem_of_getElem? hp) with rfl | hp
      · exact ⟨0, rfl⟩
      · exact h3 p hp
    split at h
    · next q' off he =>
      obtain ⟨o, ho⟩ := this _ he
      injection ho with ho
      injection h with h
      rw [← h]
      simp only
      rw [(Prod.mk.inj ho).1]; exact hq0
    · cases h

/-- C41: writing into one array does not touch another one, of either kind. -/
theorem C41_independent (m m' : Mem τ) (h : Reachable m) (v i j : Nat) (x : τ) (e : set2 m v i j x = .ok m') :
    (∀ w, w ≠ v → ∀ i' j', get2 m' w i' j' = get2 m w i' j') ∧ ∀ w i', get1 m' w i' = get1 m w i' := by
  have hi := h.inv
  obtain ⟨a, ha, e⟩ := Out.bind_ok e
  have hp := addr2_pool hi ha
  constructor
  · intro w hw i' j'
    unfold get2
    rw [addr2_store e]
    cases ha' : addr2 m w i' j' with
    | ub => rfl
    | exn => rfl
    | ok a' =>
      rw [Out.ok_bind, Out.ok_bind, load_store e, if_neg]
      rintro ⟨he, _⟩
      have hp' := addr2_pool hi ha'
      rw [he] at hp'
      exact hw (hi.injq w v a.1 hp' hp)
  · intro w i'
    have hp1 : m'.p1 = m.p1 := by
      unfold Mem.store at e
      split at e
      · split_ifs at e; injection e with e; subst e; rfl
      · cases e
    unfold get1
    rw [hp1]
    cases hw : m.p1 w with
    | none => rfl
    | some b =>
      simp only
      rw [load_store e, if_neg]
      rintro ⟨he, _⟩
      exact hi.disj w v b hw (by rw [he]; exact hp)

theorem grid_addr_ok {m : Mem τ} {v r c : Nat} (h : Grid m v r c) {i j : Nat} (hi : i < r) :
    ∃ a, addr2 m v i j = .ok a := by
  obtain ⟨q, xs, _, _, ha⟩ := h; exact ⟨_, ha i hi j⟩

theorem copyRow_spec (cast : σ → τ) (v r c i : Nat) (hi : i < r) (src : List σ) (hsrc : c ≤ src.length) :
    ∀ (n : Nat), n ≤ c → ∀ m : Mem τ, Grid m v r c → ∃ m', copyRow cast v i src n m = .ok m' ∧ Grid m' v r c ∧
      ∀ i' j', i' < r → j' < c → get2 m' v i' j' =
        if h : i' = i ∧ j' < n ∧ j' < src.length then .ok (cast (src[j']'h.2.2)) else get2 m v i' j' := by
  intro n
  induction n with
  | zero => intro _ m h; exact ⟨m, rfl, h, by intro i' j' _ _; simp⟩
  | succ n ih =>
    intro hn m h
    obtain ⟨m1, e1, g1, v1⟩ := ih (by omega) m h
    obtain ⟨m2, e2, g2, v2⟩ := C41_write m1 v r c i n (cast (src[n]'(by omega))) g1 hi (by omega)
    refine ⟨m2, ?_, g2, ?_⟩
    · simp only [copyRow]
      rw [e1, Out.ok_bind]
      have : readAt (some src) (n : Int) = .ok (src[n]'(by omega)) := by
        unfold readAt
        simp [show n < src.length by omega]
      rw [this, Out.ok_bind]; exact e2
    · intro i' j' hi' hj'
      rw [v2 i' j' hi' hj', v1 i' j' hi' hj']
      by_cases e : i' = i ∧ j' = n
      · obtain ⟨rfl, rfl⟩ := e
        rw [if_pos ⟨rfl, rfl⟩, dif_pos ⟨rfl, by omega, by omega⟩]
      · rw [if_neg e]
        by_cases e' : i' = i ∧ j' < n ∧ j' < src.length
        · rw [dif_pos e', dif_pos ⟨e'.1, by omega, e'.2.2⟩]
        · rw [dif_neg e', dif_neg]
          rintro ⟨a, b, c'⟩
          by_cases hjn : j' = n
          · exact e ⟨a, hjn⟩
          · exact e' ⟨a, by omega, c'⟩

theorem copyRows_spec (cast : σ → τ) (v r c : Nat) (src : List (List σ)) (hr : r ≤ src.length)
    (hsrc : ∀ row ∈ src, c ≤ row.length) :
    ∀ (n : Nat), n ≤ r → ∀ m : Mem τ, Grid m v r c → ∃ m', copyRows cast v src c n m = .ok m' ∧ Grid m' v r c ∧
      ∀ i' j', i' < r → j' < c → ∀ (row : List σ) (y : σ), src[i']? = some row → row[j']? = some y →
        get2 m' v i' j' = if i' < n then .ok (cast y) else get2 m v i' j' := by
  intro n
  induction n with
  | zero => intro _ m h; exact ⟨m, rfl, h, by intro i' j' _ _ row y _ _; simp⟩
  | succ n ih =>
    intro hn m h
    obtain ⟨m1, e1, g1, v1⟩ := ih (by omega) m h
    have hns : n < src.length := by omega
    have hlen := hsrc src[n] (List.getElem_mem hns)
    obtain ⟨m2, e2, g2, v2⟩ := copyRow_spec cast v r c n (by omega) src[n] hlen c le_rfl m1 g1
    refine ⟨m2, ?_, g2, ?_⟩
    · simp only [copyRows]
      rw [e1, Out.ok_bind]
      have : readAt (some src) (n : Int) = .ok src[n] := by
        unfold readAt
        simp [hns]
      rw [this, Out.ok_bind]; exact e2
    · intro i' j' hi' hj' row y hrow hy
      rw [v2 i' j' hi' hj']
      by_cases e : i' = n
      · subst e
        rw [List.getElem?_eq_getElem hns] at hrow
        injection hrow with hrow
        subst hrow
        have hjl : j' < (src[i']).length := by omega
        rw [dif_pos ⟨rfl, hj', hjl⟩, if_pos (by omega)]
        rw [List.getElem?_eq_getElem hjl] at hy
        injection hy with hy
        rw [hy]
      · rw [dif_neg (fun h => e h.1), v1 i' j' hi' hj' row y hrow hy]
        by_cases h' : i' < n
        · rw [if_pos h', if_pos (by omega)]
        · rw [if_neg h', if_neg (by omega)]

/-- C41: a copy reproduces the source cell by cell. -/
theorem C41_copy_partial (cast : σ → τ) (m : Mem τ) (v r c : Nat) (src : List (List σ)) (hv : m.p2 v = none)
    (hr0 : 0 < r) (hc0 : 0 < c) (hn : r * c < 2 ^ 31) (hr : r ≤ src.length) (hsrc : ∀ row ∈ src, c ≤ row.length) :
    ∃ m', init2Copy cast m v r c (some src) true true = .ok (true, m') ∧ Grid m' v r c ∧
      ∀ i j, i < r → j < c → ∀ (row : List σ) (y : σ), src[i]? = some row → row[j]? = some y →
        get2 m' v i j = .ok (cast y) := by
  cases src with
  | nil => simp at hr; omega
  | cons row0 src =>
    have hl0 := hsrc row0 List.mem_cons_self
    cases row0 with
    | nil => simp at hl0; omega
    | cons x0 row0 =>
      obtain ⟨m1, e1, g1, _⟩ := C41_init m v r c (cast x0) hv hn
      obtain ⟨m2, e2, g2, v2⟩ := copyRows_spec cast v r c ((x0 :: row0) :: src) hr hsrc r le_rfl m1 g1
      refine ⟨m2, ?_, g2, ?_⟩
      · unfold init2Copy
        have h1 : readAt (some ((x0 :: row0) :: src)) 0 = .ok (x0 :: row0) := rfl
        have h2 : readAt (some (x0 :: row0)) 0 = .ok x0 := rfl
        rw [h1, Out.ok_bind, h2, Out.ok_bind, e1, Out.ok_bind]
        simp only [Bool.not_true, Bool.false_eq_true, if_false, Option.getD_some, Int.toNat_natCast]
        rw [e2]; rfl
      · intro i j hi hj row y hrow hy
        rw [v2 i j hi hj row y hrow hy, if_pos hi]

/-- C41 is false of an empty or null source: it is read before anything else. -/
theorem C41_false_source (cast : σ → τ) (m : Mem τ) (v : Nat) (row col : Int) :
    init2Copy cast m v row col none true true = .ub ∧ init2Copy cast m v row col (some []) true true = .ub :=
  ⟨rfl, rfl⟩

example : (do
    let (_, m) ← init2 (Mem.init : Mem Int) 0 2 3 7 true true
    let m ← set2 m 0 1 2 9
    let a ← get2 m 0 1 2
    let b ← get2 m 0 0 2
    pure (a, b)) = .ok (9, 7) := by decide +kernel

/-! Other calls leave an array alone. -/

theorem same_of {m m' : Mem τ} (hi : Inv m) (v : Nat) (h2 : m'.p2 v = m.p2 v)
    (hr : ∀ b, m.p2 v = some b → m'.heap b = m.heap b) (hq : ∀ q, PoolOf m v q → m'.heap q = m.heap q) (i j : Nat) :
    addr2 m' v i j = addr2 m v i j ∧ get2 m' v i j = get2 m v i j := by
  have ha : addr2 m' v i j = addr2 m v i j := by
    unfold addr2
    rw [h2]
    cases hv : m.p2 v with
    | none => rfl
    | some b => simp only; rw [hr b hv]
  refine ⟨ha, ?_⟩
  unfold get2
  rw [ha]
  cases h : addr2 m v i j with
  | ub => rfl
  | exn => rfl
  | ok a =>
    rw [Out.ok_bind, Out.ok_bind]
    unfold Mem.load
    rw [hq a.1 (addr2_pool hi h)]

theorem rows_live {m : Mem τ} (hi : Inv m) {v b : Nat} (h : m.p2 v = some b) : m.heap b ≠ none :=
  hi.noDangling b (.inr (.inl ⟨v, h⟩))

theorem pool_live {m : Mem τ} (hi : Inv m) {v q : Nat} (h : PoolOf m v q) : m.heap q ≠ none := by
  obtain ⟨xs, hx⟩ := hi.pool v q h; rw [hx]; simp

theorem push_old {m : Mem τ} (hi : Inv m) (blk : Block τ) {b : Nat} (h : m.heap b ≠ none) :
    (m.push blk).heap b = m.heap b := by
  show upd m.heap m.next _ b = _
  have := hi.lt h
  rw [upd_ne _ _ _ (by omega)]

/-- C41: allocating another array, of any kind and size and with any outcome, changes no cell of this one. -/
theorem C41_stable_init (m : Mem τ) (h : Reachable m) (v i j : Nat) :
    (∀ w row x ok f m', init1 m w row x ok = (f, m') → get2 m' v i j = get2 m v i j) ∧
    (∀ w row col x ok ok' f m', w ≠ v → init2 m w row col x ok ok' = .ok (f, m') →
      get2 m' v i j = get2 m v i j) := by
  have hi := h.inv
  constructor
  · intro w row x ok f m' e
    unfold init1 at e
    cases hw : m.p1 w with
    | some b => rw [hw] at e; rw [← (Prod.mk.inj e).2]
    | none =>
      rw [hw] at e
      simp only at e
      split_ifs at e <;> rw [← (Prod.mk.inj e).2]
      · rfl
      · refine (same_of hi v ?_ ?_ ?_ i j).2
        · rfl
        · exact fun b hb => push_old hi _ (rows_live hi hb)
        · exact fun q hq => push_old hi _ (pool_live hi hq)
      · rfl
  · intro w row col x ok ok' f m' hwv e
    unfold init2 at e
    cases hw : m.p2 w with
    | some b => rw [hw] at e; injection e with e; rw [← (Prod.mk.inj e).2]
    | none =>
      rw [hw] at e
      simp only at e
      split_ifs at e with h1
      · injection e with e
        rw [← (Prod.mk.inj e).2, updNone_self _ _ hw]
      · obtain ⟨n, _, e⟩ := Out.bind_ok e
        split_ifs at e with h2
        · injection e with e
          rw [← (Prod.mk.inj e).2]
          refine (same_of hi v ?_ ?_ ?_ i j).2
          · exact upd_ne _ _ _ hwv.symm
          · exact fun b hb => push_old hi _ (rows_live hi hb)
          · exact fun q hq => push_old hi _ (pool_live hi hq)
        · injection e with e
          rw [← (Prod.mk.inj e).2]
          have key : ∀ b, m.heap b ≠ none → ∀ blk blk', ((m.push blk).push blk').heap b = m.heap b := by
            intro b hb blk blk'
            have := hi.lt hb
            show upd (upd m.heap m.next _) (m.next + 1) _ b = _
            rw [upd_ne _ _ _ (by omega), upd_ne _ _ _ (by omega)]
          refine (same_of hi v ?_ ?_ ?_ i j).2
          · exact upd_ne _ _ _ hwv.symm
          · exact fun b hb => key b (rows_live hi hb) _ _
          · exact fun q hq => key q (pool_live hi hq) _ _

/-- C41: releasing another array changes no cell of this one. -/
theorem C41_stable_release (m : Mem τ) (h : Reachable m) (v i j : Nat) :
    (∀ w m', rel1 m w = .ok m' → get2 m' v i j = get2 m v i j) ∧
    (∀ w m', w ≠ v → rel2 m w = .ok m' → get2 m' v i j = get2 m v i j) := by
  have hi := h.inv
  constructor
  · intro w m' e
    unfold rel1 at e
    cases hw : m.p1 w with
    | none => rw [hw] at e; injection e with e; rw [e]
    | some b =>
      rw [hw] at e
      simp only at e
      obtain ⟨xs, hx⟩ := hi.one w b hw
      have hf : m.free b = .ok { m with heap := upd m.heap b none } := by unfold Mem.free; rw [hx]
      rw [hf] at e
      injection e with e
      rw [← e]
      refine (same_of hi v ?_ ?_ ?_ i j).2
      · rfl
      · intro c hc
        refine upd_ne _ _ _ ?_
        rintro rfl
        obtain ⟨q, b', ps, g1, g2, _⟩ := hi.two v c hc
        rw [hc] at g1; injection g1 with g1; subst g1
        rw [hx] at g2; cases g2
      · intro q hq
        refine upd_ne _ _ _ ?_
        rintro rfl; exact hi.disj w v q hw hq
  · intro w m' hwv e
    cases hw : m.p2 w with
    | none => unfold rel2 at e; rw [hw] at e; injection e with e; rw [e]
    | some b =>
      obtain ⟨q, hq⟩ := hi.two w b hw
      obtain ⟨xs, hx⟩ := hi.pool w q hq
      have hq0 := hq
      obtain ⟨b', ps, h1, h2, h3⟩ := hq
      rw [hw] at h1; injection h1 with h1; subst h1
      have hqb : q ≠ b := by rintro rfl; rw [hx] at h2; cases h2
      have hf : m.free q = .ok { m with heap := upd m.heap q none } := by unfold Mem.free; rw [hx]
      have hf2 : Mem.free { m with heap := upd m.heap q none } b =
          .ok { m with heap := upd (upd m.heap q none) b none } := by
        unfold Mem.free
        show (match upd m.heap q none b with | none => _ | some _ => _) = _
        rw [upd_ne _ _ _ hqb.symm, h2]
      unfold rel2 at e
      rw [hw] at e
      simp only at e
      rw [h2] at e
      simp only [List.getElem?_cons_zero] at e
      rw [hf, Out.ok_bind, hf2, Out.ok_bind] at e
      injection e with e
      rw [← e]
      refine (same_of hi v (upd_ne _ _ _ hwv.symm) ?_ ?_ i j).2
      · intro c hc
        show upd (upd m.heap q none) b none c = _
        rw [upd_ne, upd_ne]
        · rintro rfl
          obtain ⟨_, b', ps', g1, g2, _⟩ := hi.two v c hc
          rw [hc] at g1; injection g1 with g1; subst g1
          rw [hx] at g2; cases g2
        · rintro rfl; exact hwv (hi.inj2 w v c hw hc)
      · intro q' hq'
        show upd (upd m.heap q none) b none q' = _
        rw [upd_ne, upd_ne]
        · rintro rfl; exact hwv (hi.injq w v q' hq0 hq')
        · rintro rfl
          obtain ⟨ys, hy⟩ := hi.pool v q' hq'
          rw [h2] at hy; cases hy

/-! ## C42 -/

theorem copied_ok (cast : σ → τ) (src : List σ) : ∀ n, n ≤ src.length →
    copied cast src n = .ok ((src.take n).map (fun y => some (cast y)))
  | 0, _ => rfl
  | n + 1, h => by
    simp only [copied]
    rw [copied_ok cast src n (by omega), Out.ok_bind]
    have : readAt (some src) (n : Int) = .ok (src[n]'(by omega)) := by
      unfold readAt
      simp [show n < src.length by omega]
    rw [this, Out.ok_bind, List.take_succ_eq_append_getElem (by omega), List.map_append]
    rfl

/-- Elements taken by the rows in flat form. -/
def total (rs : List (σ × List σ)) : Nat := (rs.map (fun p => p.2.length + 1)).sum

theorem flat_length (rs : List (σ × List σ)) : (rs.flatMap (fun p => p.1 :: p.2)).length = total rs := by
  induction rs with
  | nil => rfl
  | cons p rs ih =>
    rw [List.flatMap_cons, List.length_append, ih]
    simp [total]

theorem irrCols_spec (toInt : σ → Int) : ∀ (rs : List (σ × List σ)) (pre : List σ) (mx : Int),
    (∀ p ∈ rs, toInt p.1 = p.2.length) →
    ∃ mx', irrCols toInt (pre ++ rs.flatMap (fun p => p.1 :: p.2)) rs.length pre.length mx =
        .ok (rs.map (fun p => (p.2.length : Int)), pre.length + total rs, mx') ∧
      (∀ p ∈ rs, (p.2.length : Int) ≤ mx') ∧ mx ≤ mx' ∧ (mx' = mx ∨ ∃ p ∈ rs, mx' = p.2.length)
  | [], pre, mx, _ => ⟨mx, by simp [irrCols, total], by simp, le_rfl, .inl rfl⟩
  | p :: rs, pre, mx, h => by
    have hp := h p List.mem_cons_self
    obtain ⟨mx', e, h1, h2, h3⟩ := irrCols_spec toInt rs (pre ++ p.1 :: p.2)
      (if (p.2.length : Int) > mx then (p.2.length : Int) else mx) (fun q hq => h q (List.mem_cons_of_mem _ hq))
    refine ⟨mx', ?_, ?_, ?_, ?_⟩
    · rw [List.length_cons]
      simp only [irrCols, List.flatMap_cons]
      have hrd : readAt (some (pre ++ (p.1 :: p.2 ++ rs.flatMap (fun p => p.1 :: p.2)))) (pre.length : Int) =
          .ok p.1 := by
        unfold readAt
        dsimp only
        rw [if_pos (by omega), Int.toNat_natCast, List.getElem?_append_right le_rfl]
        simp
      rw [hrd, Out.ok_bind]
      rw [hp]
      rw [List.append_assoc] at e
      have hl : ((pre ++ p.1 :: p.2).length : Int) = (pre.length : Int) + ((p.2.length : Int) + 1) := by
        simp
      rw [hl] at e
      rw [e, Out.ok_bind]
      simp only [List.map_cons]
      congr 3
      simp [total]; ring
    · intro q hq
      rcases List.mem_cons.1 hq with rfl | hq
      · split_ifs at h2 <;> omega
      · exact h1 q hq
    · split_ifs at h2 <;> omega
    · rcases h3 with h3 | ⟨q, hq, h3⟩
      · split_ifs at h3 with hc
        · exact .inr ⟨p, List.mem_cons_self, h3⟩
        · exact .inl h3
      · exact .inr ⟨q, List.mem_cons_of_mem _ hq, h3⟩

theorem irrPtrs_spec (q : Nat) (len : Nat) : ∀ (rs : List (σ × List σ)) (pos : Nat), pos + total rs ≤ len →
    irrPtrs q len pos (rs.map (fun p => (p.2.length : Int))) =
      .ok ((List.range rs.length).map (fun i => some (q, pos + rowStart rs i)))
  | [], pos, _ => rfl
  | p :: rs, pos, h => by
    have ht : total (p :: rs) = p.2.length + 1 + total rs := by simp [total]
    rw [List.map_cons]
    unfold irrPtrs
    rw [if_pos ⟨by omega, by omega⟩]
    have e : (pos : Int) + ((p.2.length : Int) + 1) = ((pos + (p.2.length + 1) : Nat) : Int) := by push_cast; ring
    rw [e, irrPtrs_spec q len rs _ (by omega), Out.ok_bind, List.length_cons, List.range_succ_eq_map]
    simp only [List.map_cons, List.map_map, Int.toNat_natCast]
    congr 2
    apply List.map_congr_left
    intro i _
    simp [rowStart]; omega

theorem flat_get : ∀ (rs : List (σ × List σ)) (i : Nat) (p : σ × List σ), rs[i]? = some p → ∀ k : Nat,
    k < p.2.length + 1 → (rs.flatMap (fun p => p.1 :: p.2))[rowStart rs i + k]? = (p.1 :: p.2)[k]?
  | [], i, p, h, _, _ => by simp at h
  | r :: rs, 0, p, h, k, hk => by
    simp at h; subst h
    simp only [rowStart, List.take_zero, List.map_nil, List.sum_nil, Nat.zero_add, List.flatMap_cons]
    rw [List.getElem?_append_left (by simpa using hk)]
  | r :: rs, i + 1, p, h, k, hk => by
    rw [List.getElem?_cons_succ] at h
    have := flat_get rs i p h k hk
    rw [← this, List.flatMap_cons]
    have e : rowStart (r :: rs) (i + 1) + k = (r.1 :: r.2).length + (rowStart rs i + k) := by
      simp [rowStart]; omega
    rw [e, List.getElem?_append_right (by omega)]
    congr 1; omega

/-- C42: copying an irregular array given in flat form. `rs` are its rows, each with the element that holds its
length. The result has the number of rows and the longest length; row `i` starts with its length element, followed by
its values; all rows lie one after the other in a single block that ends with the last row. -/
theorem C42_irregular (cast : σ → τ) (toInt : σ → Int) (m : Mem τ) (v : Nat) (n : σ) (rs : List (σ × List σ))
    (hn : toInt n = rs.length) (hrs : ∀ p ∈ rs, toInt p.1 = p.2.length) :
    ∃ mx m', init2Irr cast toInt m v (flat n rs) true true = .ok (true, rs.length, mx, m') ∧
      (∀ p ∈ rs, (p.2.length : Int) ≤ mx) ∧ (mx = -1 ∨ ∃ p ∈ rs, mx = p.2.length) ∧
      ∃ q xs, m'.heap q = some (.vals xs) ∧ xs.length = (rs.map (fun p => p.2.length + 1)).sum ∧
        ∀ i p, rs[i]? = some p →
          (∀ j, addr2 m' v i j = .ok (q, rowStart rs i + j)) ∧
          get2 m' v i 0 = .ok (cast p.1) ∧ ∀ j y, p.2[j]? = some y → get2 m' v i (j + 1) = .ok (cast y) := by
  obtain ⟨mx, h1, h2, _, h3⟩ := irrCols_spec toInt rs [n] (-1) hrs
  have hlen : ((flat n rs).drop 1).length = total rs := by
    show (rs.flatMap (fun p => p.1 :: p.2)).length = _
    exact flat_length rs
  have hcop := copied_ok cast ((flat n rs).drop 1) (total rs) (by rw [hlen])
  have htake : ((flat n rs).drop 1).take (total rs) = rs.flatMap (fun p => p.1 :: p.2) := by
    rw [List.take_of_length_le (by rw [hlen])]; rfl
  rw [htake] at hcop
  have hptr := irrPtrs_spec (m.next + 1) (total rs) rs 0 (by omega)
  set xs : List (Option τ) := (rs.flatMap (fun p => p.1 :: p.2)).map (fun y => some (cast y)) with hxs
  set ps := (List.range rs.length).map (fun i => some (m.next + 1, 0 + rowStart rs i)) with hps
  refine ⟨mx, { (m.push (.ptrs ps)).push (.vals xs) with p2 := upd m.p2 v (some m.next) }, ?_, h2, h3,
    m.next + 1, xs, ?_, ?_, ?_⟩
  · unfold init2Irr
    have h0 : readAt (some (flat n rs)) 0 = .ok n := rfl
    rw [h0, Out.ok_bind]
    dsimp only
    rw [hn, if_neg (by simp), Int.toNat_natCast]
    have h1' : irrCols toInt (flat n rs) rs.length 1 (-1) =
        .ok (rs.map (fun p => (p.2.length : Int)), 1 + total rs, mx) := by
      have := h1
      simpa [flat] using this
    rw [h1', Out.ok_bind]
    dsimp only
    have e : (1 + (total rs : Int) - 1) = total rs := by ring
    rw [e, if_neg (by simp), Int.toNat_natCast, hcop, Out.ok_bind]
    have hptr' : irrPtrs (m.next + 1) (total rs) 0 (rs.map (fun p => (p.2.length : Int))) = .ok ps := by
      simpa using hptr
    rw [hptr', Out.ok_bind]
  · show upd _ (m.next + 1) _ (m.next + 1) = _
    rw [upd_same]
  · rw [hxs, List.length_map, flat_length]; rfl
  · intro i p hp
    have hi : i < rs.length := by
      by_contra hc
      rw [List.getElem?_eq_none (by omega)] at hp; cases hp
    have ha : ∀ j, addr2 ({ (m.push (.ptrs ps)).push (.vals xs) with p2 := upd m.p2 v (some m.next) } : Mem τ) v i j =
        .ok (m.next + 1, rowStart rs i + j) := by
      intro j
      unfold addr2
      simp only [upd_same]
      show (match upd (upd m.heap m.next _) (m.next + 1) _ m.next with | some (.ptrs ps) => _ | _ => _) = _
      rw [upd_ne _ _ _ (by omega), upd_same]
      simp only
      have : ps[i]? = some (some (m.next + 1, 0 + rowStart rs i)) := by
        rw [hps]; simp [hi]
      rw [this]; simp
    have hg : ∀ k y, (p.1 :: p.2)[k]? = some y → get2 ({ (m.push (.ptrs ps)).push (.vals xs) with
        p2 := upd m.p2 v (some m.next) } : Mem τ) v i k = .ok (cast y) := by
      intro k y hk
      have hkl : k < p.2.length + 1 := by
        by_contra hc
        rw [List.getElem?_eq_none (by simpa using hc)] at hk; cases hk
      unfold get2
      rw [ha k, Out.ok_bind]
      unfold Mem.load
      show (match upd (upd m.heap m.next _) (m.next + 1) _ (m.next + 1) with | some (Block.vals xs) => _ | _ => _) = _
      rw [upd_same]
      simp only
      rw [hxs, List.getElem?_map, flat_get rs i p hp k hkl, hk]
      rfl
    exact ⟨ha, hg 0 p.1 rfl, fun j y hj => hg (j + 1) y (by simpa using hj)⟩

theorem rowStart_step (rs : List (σ × List σ)) (i : Nat) (p : σ × List σ) (h : rs[i]? = some p) :
    rowStart rs (i + 1) = rowStart rs i + (p.2.length + 1) := by
  unfold rowStart
  have hi : i < rs.length := by
    by_contra hc
    rw [List.getElem?_eq_none (by omega)] at h; cases h
  rw [List.take_succ_eq_append_getElem hi]
  rw [List.getElem?_eq_getElem hi] at h
  injection h with h
  simp [h]

theorem rowStart_mono (rs : List (σ × List σ)) {i j : Nat} (h : i ≤ j) : rowStart rs i ≤ rowStart rs j := by
  induction h with
  | refl => exact le_rfl
  | @step k _ ih =>
    refine le_trans ih ?_
    cases hk : rs[k]? with
    | none =>
      unfold rowStart
      rw [List.take_of_length_le (by simpa using hk), List.take_of_length_le (by
        have : rs.length ≤ k := by simpa using hk
        omega)]
    | some p => rw [rowStart_step rs k p hk]; omega

/-- C42: no two elements of the rows share an address, and the last row ends at the end of the block. -/
theorem C42_disjoint (rs : List (σ × List σ)) (i i' j j' : Nat) (p p' : σ × List σ) (h : rs[i]? = some p)
    (h' : rs[i']? = some p') (hj : j ≤ p.2.length) (hj' : j' ≤ p'.2.length)
    (he : rowStart rs i + j = rowStart rs i' + j') : i = i' ∧ j = j' := by
  have s := rowStart_step rs i p h
  have s' := rowStart_step rs i' p' h'
  rcases Nat.lt_trichotomy i i' with hlt | rfl | hlt
  · have := rowStart_mono rs (show i + 1 ≤ i' by omega); omega
  · exact ⟨rfl, by omega⟩
  · have := rowStart_mono rs (show i' + 1 ≤ i by omega); omega

theorem C42_end (rs : List (σ × List σ)) : rowStart rs rs.length = (rs.map (fun p => p.2.length + 1)).sum := by
  simp [rowStart]

example : ∃ mx m', init2Irr (fun z : Int => z) id Mem.init 0 [2, 3, 7, 8, 9, 1, 5] true true = .ok (true, 2, mx, m') ∧
    get2 m' 0 0 0 = .ok 3 ∧ get2 m' 0 0 3 = .ok 9 ∧ get2 m' 0 1 0 = .ok 1 ∧ get2 m' 0 1 1 = .ok 5 :=
  ⟨_, _, rfl, rfl, rfl, rfl, rfl⟩

/-- Reading rows from text: every row has its length in front and its own block. -/
theorem readRows_spec : ∀ (rs : List (List Int)) (m : Mem Int) (extra : List Int),
    ∃ m', readRows m (rs.flatMap (fun r => (r.length : Int) :: r) ++ extra) rs.length =
        .ok ((List.range rs.length).map (fun i => some (m.next + i, 0)), m') ∧
      m'.next = m.next + rs.length ∧ (∀ b, b < m.next → m'.heap b = m.heap b) ∧ m'.p2 = m.p2 ∧
      ∀ (i : Nat) r, rs[i]? = some r → m'.heap (m.next + i) = some (.vals (((r.length : Int) :: r).map some))
  | [], m, extra => ⟨m, by simp [readRows], by simp, fun _ _ => rfl, rfl, by simp⟩
  | r :: rs, m, extra => by
    obtain ⟨m', h1, h2, h3, h4, h5⟩ := readRows_spec rs (m.push (.vals (((r.length : Int) :: r).map some))) extra
    refine ⟨m', ?_, ?_, ?_, h4, ?_⟩
    · simp only [List.flatMap_cons, List.cons_append, List.append_assoc, List.length_cons]
      unfold readRows
      rw [if_neg (by simp)]
      simp only [Int.toNat_natCast, List.take_left, List.drop_left]
      rw [h1, Out.ok_bind, List.range_succ_eq_map]
      simp only [List.map_cons, List.map_map]
      show Out.ok (_, _) = _
      congr 3
      apply List.map_congr_left
      intro i _
      show some (m.next + 1 + i, 0) = some (m.next + (i + 1), 0)
      rw [show m.next + 1 + i = m.next + (i + 1) by omega]
    · rw [h2]; show m.next + 1 + rs.length = _; simp; omega
    · intro b hb
      rw [h3 b (by show b < m.next + 1; omega)]
      show upd m.heap m.next _ b = _
      rw [upd_ne _ _ _ (by omega)]
    · intro i r' hr'
      cases i with
      | zero =>
        simp at hr'; subst hr'
        rw [h3 _ (by show m.next + 0 < m.next + 1; omega)]
        show upd m.heap m.next _ (m.next + 0) = _
        simp
      | succ i =>
        rw [List.getElem?_cons_succ] at hr'
        have := h5 i r' hr'
        have e : (m.push (Block.vals (((r.length : Int) :: r).map some))).next + i = m.next + (i + 1) := by
          show m.next + 1 + i = _; omega
        rwa [e] at this

/-- C42: an irregular array read from text has the given rows, each preceded by its length. -/
theorem C42_read (m : Mem Int) (v : Nat) (rs : List (List Int)) (extra : List Int) :
    ∃ m', read2D m v ((rs.length : Int) :: (rs.flatMap (fun r => (r.length : Int) :: r) ++ extra)) = .ok (rs.length, m') ∧
      ∀ (i : Nat) r, rs[i]? = some r → get2 m' v i 0 = .ok (r.length : Int) ∧
        ∀ (j : Nat) y, r[j]? = some y → get2 m' v i (j + 1) = .ok y := by
  obtain ⟨m1, h1, h2, h3, h4, h5⟩ := readRows_spec rs m extra
  refine ⟨{ m1.push (.ptrs ((List.range rs.length).map (fun i => some (m.next + i, 0)))) with
    p2 := upd m1.p2 v (some m1.next) }, ?_, ?_⟩
  · unfold read2D
    simp only
    rw [if_neg (by omega), Int.toNat_natCast, h1, Out.ok_bind]
    rfl
  · intro i r hr
    have hi : i < rs.length := by
      by_contra hc
      rw [List.getElem?_eq_none (by omega)] at hr; cases hr
    have hg : ∀ (k : Nat) y, ((r.length : Int) :: r)[k]? = some y → get2 ({ m1.push (.ptrs ((List.range rs.length).map
        (fun i => some (m.next + i, 0)))) with p2 := upd m1.p2 v (some m1.next) } : Mem Int) v i k = .ok y := by
      intro k y hk
      unfold get2 addr2
      simp only [upd_same]
      have e1 : (m1.push (.ptrs ((List.range rs.length).map (fun i => some (m.next + i, 0))))).heap m1.next =
          some (.ptrs ((List.range rs.length).map (fun i => some (m.next + i, 0)))) := by
        show upd m1.heap m1.next _ m1.next = _; simp
      rw [e1]
      simp only
      have e2 : ((List.range rs.length).map (fun i => some (m.next + i, 0)))[i]? = some (some (m.next + i, 0)) := by
        simp [hi]
      rw [e2]
      simp only [Out.ok_bind, Nat.zero_add]
      have e3 : (m1.push (.ptrs ((List.range rs.length).map (fun i => some (m.next + i, 0))))).heap (m.next + i) =
          some (.vals (((r.length : Int) :: r).map some)) := by
        show upd m1.heap m1.next _ (m.next + i) = _
        rw [upd_ne _ _ _ (by omega)]; exact h5 i r hr
      unfold Mem.load
      dsimp only
      rw [e3]
      simp only
      rw [List.getElem?_map, hk]; rfl
    exact ⟨hg 0 _ rfl, fun j y hj => hg (j + 1) y (by simpa using hj)⟩

/-! ## C43 -/

/-- C43: `ValueInVector` is membership. -/
theorem C43_member [DecidableEq τ] (x : τ) (vec : List τ) : valueInVector x vec = true ↔ x ∈ vec := by
  unfold valueInVector
  split_ifs with h
  · subst h; simp
  · rw [List.find?_isSome]
    simp

theorem removeLoop_eq [DecidableEq τ] (x : τ) : ∀ (rest before : List τ),
    removeLoop x before rest = before ++ rest.filter (fun y => y ≠ x)
  | [], before => by simp [removeLoop]
  | y :: rest, before => by
    unfold removeLoop
    split_ifs with h
    · rw [removeLoop_eq x rest before]; simp [h]
    · rw [removeLoop_eq x rest]; simp [h]

/-- C43: `RemoveValueInVector` removes every occurrence of the value and keeps the other values, as often as they
occur and in their order. -/
theorem C43_remove [DecidableEq τ] (x : τ) (vec : List τ) :
    x ∉ removeValueInVector x vec ∧ (removeValueInVector x vec).Sublist vec ∧
    ∀ y, y ≠ x → (removeValueInVector x vec).count y = vec.count y := by
  have e : removeValueInVector x vec = vec.filter (fun y => y ≠ x) := by
    unfold removeValueInVector; rw [removeLoop_eq]; simp
  rw [e]
  refine ⟨by simp, List.filter_sublist, ?_⟩
  intro y hy
  rw [List.count_filter (by simpa using hy)]

/-- C43: nothing changes if the value does not occur; removing twice is removing once. -/
theorem C43_idempotent [DecidableEq τ] (x : τ) (vec : List τ) :
    (x ∉ vec → removeValueInVector x vec = vec) ∧
    removeValueInVector x (removeValueInVector x vec) = removeValueInVector x vec := by
  have e : ∀ vec : List τ, removeValueInVector x vec = vec.filter (fun y => y ≠ x) := by
    intro vec; unfold removeValueInVector; rw [removeLoop_eq]; simp
  constructor
  · intro h
    rw [e, List.filter_eq_self]
    intro y hy
    simp; rintro rfl; exact h hy
  · simp [e]

example : removeValueInVector 2 [1, 2, 3, 2, 2, 4] = [1, 3, 4] ∧ valueInVector 3 [1, 2, 3] = true ∧
    valueInVector 5 [1, 2, 3] = false := by decide

end CCGL.Arr
