import Verif.Props.Array
/-!
# One-dimensional arrays: contents and return values (C41, C42)
-/
namespace CCGL.Arr
open Spec
variable {τ σ : Type}

theorem load_vals {m : Mem τ} {b : Nat} {xs : List (Option τ)} (h : m.heap b = some (.vals xs)) (i : Nat) :
    m.load b i = match xs[i]? with | some (some x) => .ok x | _ => .ub := by
  unfold Mem.load; rw [h]; rfl

/-- C41: a new one-dimensional array has exactly `n` elements, all with the initial value; the other arrays stay. -/
theorem C41_one_init (m : Mem τ) (v n : Nat) (x : τ) (hv : m.p1 v = none) (hn : 0 < n) :
    ∃ m', init1 m v n x true = (true, m') ∧ (∀ i, i < n → get1 m' v i = .ok x) ∧ (∀ i, n ≤ i → get1 m' v i = .ub) ∧
      (∀ w, w ≠ v → m'.p1 w = m.p1 w) ∧ m'.p2 = m.p2 ∧ ∀ b, b ≠ m.next → m'.heap b = m.heap b := by
  refine ⟨{ m.push (filled n x) with p1 := upd m.p1 v (some m.next) }, ?_, ?_, ?_, ?_, rfl, ?_⟩
  · unfold init1
    rw [hv]
    dsimp only
    rw [if_neg (by omega), if_pos rfl]
    rfl
  · intro i hi
    have h1 : get1 { m.push (filled n x) with p1 := upd m.p1 v (some m.next) } v i =
        Mem.load { m.push (filled n x) with p1 := upd m.p1 v (some m.next) } m.next i := by
      unfold get1
      simp [upd]
    rw [h1, load_vals (xs := List.replicate n (some x)) (by simp [Mem.push, upd, filled])]
    simp [hi]
  · intro i hi
    have h1 : get1 { m.push (filled n x) with p1 := upd m.p1 v (some m.next) } v i =
        Mem.load { m.push (filled n x) with p1 := upd m.p1 v (some m.next) } m.next i := by
      unfold get1
      simp [upd]
    rw [h1, load_vals (xs := List.replicate n (some x)) (by simp [Mem.push, upd, filled])]
    rw [List.getElem?_eq_none (by simpa using hi)]
  · intro w hw
    simp [upd, hw]
  · intro b hb
    simp [Mem.push, upd, hb]

example : ∃ m', init1 (Mem.init : Mem Int) 0 3 7 true = (true, m') ∧ get1 m' 0 2 = .ok 7 := by
  obtain ⟨m', h, h2, -⟩ := C41_one_init (Mem.init : Mem Int) 0 3 7 rfl (by decide)
  exact ⟨m', h, h2 2 (by decide)⟩

/-- C41: a copy of a one-dimensional array has its (converted) elements. -/
theorem C41_one_copy (cast : σ → τ) (m : Mem τ) (v n : Nat) (src : List σ) (hv : m.p1 v = none) (hn : n ≤ src.length) :
    ∃ m', init1Copy cast m v n (some src) true = .ok (true, m') ∧ (∀ i y, i < n → src[i]? = some y → get1 m' v i = .ok (cast y)) ∧
      (∀ i, n ≤ i → get1 m' v i = .ub) ∧
      (∀ w, w ≠ v → m'.p1 w = m.p1 w) ∧ m'.p2 = m.p2 ∧ ∀ b, b ≠ m.next → m'.heap b = m.heap b := by
  set xs : List (Option τ) := (src.take n).map (fun y => some (cast y)) with hxs
  have hg : ∀ i, get1 { m.push (.vals xs) with p1 := upd m.p1 v (some m.next) } v i = match xs[i]? with | some (some x) => .ok x | _ => .ub := by
    intro i
    have h1 : get1 { m.push (.vals xs) with p1 := upd m.p1 v (some m.next) } v i =
        Mem.load { m.push (.vals xs) with p1 := upd m.p1 v (some m.next) } m.next i := by
      unfold get1
      simp [upd]
    rw [h1, load_vals (xs := xs) (by simp [Mem.push, upd])]
  refine ⟨{ m.push (.vals xs) with p1 := upd m.p1 v (some m.next) }, ?_, ?_, ?_, ?_, rfl, ?_⟩
  · unfold init1Copy
    rw [hv]
    dsimp only
    rw [if_neg (by simp)]
    simp only [Int.toNat_natCast]
    rw [copied_ok cast src n hn]
    rfl
  · intro i y hi hy
    rw [hg]
    have : xs[i]? = some (some (cast y)) := by
      rw [hxs, List.getElem?_map, List.getElem?_take_of_lt hi, hy]
      rfl
    rw [this]
  · intro i hi
    rw [hg]
    rw [List.getElem?_eq_none (by simp [hxs]; omega)]
  · intro w hw
    simp [upd, hw]
  · intro b hb
    simp [Mem.push, upd, hb]

example : ∃ m', init1Copy (fun z : Int => 2 * z) (Mem.init : Mem Int) 0 2 (some [4, 5, 6]) true = .ok (true, m') ∧ get1 m' 0 1 = .ok 10 := by
  obtain ⟨m', h, h2, -⟩ := C41_one_copy (fun z : Int => 2 * z) (Mem.init : Mem Int) 0 2 [4, 5, 6] rfl (by decide)
  exact ⟨m', h, h2 1 5 (by decide) rfl⟩

/-- C41: what the results of the two functions mean. `true` is returned exactly if the pointer was null, the size is acceptable, the memory was
there and (for copies) the source is not null. If a non-null pointer is given nothing changes. If `false` is returned for a null pointer, it stays null
and no block is allocated (for copies: if the source is not null, see `C41_false_one`). -/
theorem C41_one_flag (m m' : Mem τ) (v : Nat) (row : Int) (x : τ) (ok f : Bool) (e : init1 m v row x ok = (f, m')) :
    (f = true ↔ m.p1 v = none ∧ 0 < row ∧ ok = true) ∧ (m.p1 v ≠ none → m' = m) ∧
    (f = false → m.p1 v = none → m'.p1 v = none ∧ m'.heap = m.heap) := by
  unfold init1 at e
  cases hv : m.p1 v with
  | some b =>
    rw [hv] at e
    injection e with e1 e2
    subst e1; subst e2
    exact ⟨by simp, fun _ => rfl, fun _ h => by cases h⟩
  | none =>
    rw [hv] at e
    dsimp only at e
    by_cases hr : row ≤ 0
    · rw [if_pos hr] at e
      injection e with e1 e2
      subst e1; subst e2
      exact ⟨by simp; omega, fun h => absurd rfl h, fun _ _ => ⟨by simp [upd], rfl⟩⟩
    · rw [if_neg hr] at e
      cases ok with
      | true =>
        rw [if_pos rfl] at e
        injection e with e1 e2
        subst e1; subst e2
        exact ⟨by simp; omega, fun h => absurd rfl h, fun h => by cases h⟩
      | false =>
        rw [if_neg (by simp)] at e
        injection e with e1 e2
        subst e1; subst e2
        exact ⟨by simp, fun h => absurd rfl h, fun _ _ => ⟨by simp [upd], rfl⟩⟩

theorem C41_one_copy_flag (cast : σ → τ) (m m' : Mem τ) (v : Nat) (row : Int) (src : Ptr σ) (ok f : Bool) (e : init1Copy cast m v row src ok = .ok (f, m')) :
    (f = true ↔ m.p1 v = none ∧ 0 ≤ row ∧ ok = true ∧ src ≠ none) ∧ (m.p1 v ≠ none → m' = m) ∧
    (f = false → m.p1 v = none → src ≠ none → m'.p1 v = none ∧ m'.heap = m.heap) := by
  unfold init1Copy at e
  cases hv : m.p1 v with
  | some b =>
    rw [hv] at e
    injection e with e
    injection e with e1 e2
    subst e1; subst e2
    exact ⟨by simp, fun _ => rfl, fun _ h => by cases h⟩
  | none =>
    rw [hv] at e
    dsimp only at e
    by_cases hr : row < 0 ∨ (!ok) = true
    · rw [if_pos hr] at e
      injection e with e
      injection e with e1 e2
      subst e1; subst e2
      refine ⟨?_, fun h => absurd rfl h, fun _ _ _ => ⟨by simp [upd], rfl⟩⟩
      constructor
      · intro h; cases h
      · rintro ⟨-, h1, h2, -⟩
        rcases hr with h | h
        · omega
        · rw [h2] at h; cases h
    · rw [if_neg hr] at e
      have h0 : 0 ≤ row ∧ ok = true := by
        constructor
        · by_contra h; exact hr (.inl (by omega))
        · cases ok with
          | true => rfl
          | false => exact absurd (.inr rfl) hr
      cases src with
      | none =>
        dsimp only at e
        injection e with e
        injection e with e1 e2
        subst e1
        exact ⟨by simp, fun h => absurd rfl h, fun _ _ h => absurd rfl h⟩
      | some s =>
        dsimp only at e
        obtain ⟨xs, -, e⟩ := Out.bind_ok e
        injection e with e
        injection e with e1 e2
        subst e1
        exact ⟨by simp [h0], fun h => absurd rfl h, fun h => by cases h⟩

/-- C41, false of the code: after a refused copy (null source) the pointer is not null, its array has indeterminate elements, and a second request on it
fails. -/
theorem C41_false_one (cast : σ → τ) (m : Mem τ) (v n : Nat) (hv : m.p1 v = none) :
    ∃ m', init1Copy cast m v n none true = .ok (false, m') ∧ m'.p1 v ≠ none ∧ (∀ i, get1 m' v i = .ub) ∧
      ∀ row x ok, init1 m' v row x ok = (false, m') := by
  refine ⟨{ m.push (.vals (List.replicate n none)) with p1 := upd m.p1 v (some m.next) }, ?_, by simp [upd], ?_, ?_⟩
  · unfold init1Copy
    rw [hv]
    dsimp only
    rw [if_neg (by simp)]
    rfl
  · intro i
    have h1 : get1 { m.push (.vals (List.replicate n none)) with p1 := upd m.p1 v (some m.next) } v i =
        Mem.load { m.push (.vals (List.replicate n none)) with p1 := upd m.p1 v (some m.next) } m.next i := by
      unfold get1
      simp [upd]
    rw [h1, load_vals (xs := List.replicate n none) (by simp [Mem.push, upd])]
    by_cases hi : i < n
    · simp [hi]
    · rw [List.getElem?_eq_none (by simpa using hi)]
  · intro row x ok
    have h1 : ({ m.push (.vals (List.replicate n none)) with p1 := upd m.p1 v (some m.next) } : Mem τ).p1 v = some m.next := by simp [upd]
    unfold init1
    rw [h1]

/-- C41: an element written is read back, the others of the array stay. -/
theorem C41_one_write (m : Mem τ) (v b i : Nat) (x : τ) (xs : List (Option τ)) (hv : m.p1 v = some b) (hb : m.heap b = some (.vals xs)) (hi : i < xs.length) :
    ∃ m', set1 m v i x = .ok m' ∧ ∀ k, get1 m' v k = if k = i then .ok x else get1 m v k := by
  refine ⟨{ m with heap := upd m.heap b (some (.vals (xs.set i (some x)))) }, ?_, ?_⟩
  · unfold set1
    rw [hv]
    exact store_spec hb hi x
  · intro k
    unfold get1
    rw [hv]
    show Mem.load _ b k = if k = i then .ok x else Mem.load m b k
    rw [load_vals (xs := xs.set i (some x)) (by simp [upd]), load_vals hb]
    by_cases hk : k = i
    · subst hk
      rw [if_pos rfl, List.getElem?_set_self hi]
    · rw [if_neg hk, List.getElem?_set_ne (fun h => hk h.symm)]

example : ∃ m', set1 (init1 (Mem.init : Mem Int) 0 3 7 true).2 0 1 9 = .ok m' ∧ get1 m' 0 1 = .ok 9 ∧ get1 m' 0 2 = .ok 7 := by
  obtain ⟨m', h, h2⟩ := C41_one_write (init1 (Mem.init : Mem Int) 0 3 7 true).2 0 0 1 9 [some 7, some 7, some 7] rfl rfl (by decide)
  exact ⟨m', h, by rw [h2]; rfl, by rw [h2]; rfl⟩

/-- C42: an irregular array whose row pointers cannot be allocated (or with a negative number of rows) is refused, with a null pointer and no new block. -/
theorem C42_refused (cast : σ → τ) (toInt : σ → Int) (m : Mem τ) (v : Nat) (n : σ) (rest : List σ) (ok ok' : Bool) (h : toInt n < 0 ∨ ok = false) :
    ∃ mx m', init2Irr cast toInt m v (n :: rest) ok ok' = .ok (false, toInt n, mx, m') ∧ m'.p2 v = none ∧ m'.heap = m.heap ∧ ∀ w, w ≠ v → m'.p2 w = m.p2 w := by
  refine ⟨0, { m with p2 := upd m.p2 v none }, ?_, by simp [upd], rfl, fun w hw => by simp [upd, hw]⟩
  unfold init2Irr
  have : readAt (some (n :: rest)) 0 = .ok n := rfl
  rw [this, Out.ok_bind]
  dsimp only
  rw [if_pos]
  rcases h with h | h
  · exact .inl h
  · exact .inr (by rw [h]; rfl)

example : ∃ mx m', init2Irr (fun z : Int => z) id Mem.init 0 [2, 1, 5, 1, 6] false true = .ok (false, 2, mx, m') ∧ m'.p2 0 = none := by
  obtain ⟨mx, m', h, h2, -⟩ := C42_refused (fun z : Int => z) id Mem.init 0 2 [1, 5, 1, 6] false true (.inr rfl)
  exact ⟨mx, m', h, h2⟩

end CCGL.Arr
