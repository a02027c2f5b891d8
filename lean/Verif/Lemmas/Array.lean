import Verif.Spec.Array
/-! # Heap invariant of the array helpers -/
namespace CCGL.Arr
open Spec
variable {τ σ : Type}

@[simp] theorem upd_same {β : Type} (f : Nat → β) (i : Nat) (x : β) : upd f i x i = x := by simp [upd]
theorem upd_ne {β : Type} (f : Nat → β) (i : Nat) (x : β) {j : Nat} (h : j ≠ i) : upd f i x j = f j := by simp [upd, h]

/-- The number block of a two-dimensional array. -/
def PoolOf (m : Mem τ) (v q : Nat) : Prop :=
  ∃ b ps, m.p2 v = some b ∧ m.heap b = some (.ptrs (some (q, 0) :: ps)) ∧ ∀ p ∈ ps, ∃ off, p = some (q, off)

structure Inv (m : Mem τ) : Prop where
  fresh : ∀ b, m.next ≤ b → m.heap b = none
  one : ∀ v b, m.p1 v = some b → ∃ xs, m.heap b = some (.vals xs)
  two : ∀ v b, m.p2 v = some b → ∃ q, PoolOf m v q
  pool : ∀ v q, PoolOf m v q → ∃ xs, m.heap q = some (.vals xs)
  inj1 : ∀ v w b, m.p1 v = some b → m.p1 w = some b → v = w
  inj2 : ∀ v w b, m.p2 v = some b → m.p2 w = some b → v = w
  injq : ∀ v w q, PoolOf m v q → PoolOf m w q → v = w
  disj : ∀ v w q, m.p1 v = some q → PoolOf m w q → False
  all : ∀ b, m.heap b ≠ none → (∃ v, m.p1 v = some b) ∨ (∃ v, m.p2 v = some b) ∨ ∃ v, PoolOf m v b

theorem PoolOf.unique {m : Mem τ} {v q q' : Nat} (h : PoolOf m v q) (h' : PoolOf m v q') : q = q' := by
  obtain ⟨b, ps, h1, h2, _⟩ := h
  obtain ⟨b', ps', h1', h2', _⟩ := h'
  rw [h1] at h1'
  injection h1' with e; subst e
  rw [h2] at h2'
  injection h2' with e; injection e with e; injection e with e; injection e with e; exact (Prod.mk.inj e).1

/-- `PoolOf` depends on the variable and its row block only. -/
theorem PoolOf.congr {m m' : Mem τ} {v q : Nat} (h : PoolOf m v q) (h2 : m'.p2 v = m.p2 v)
    (hh : ∀ b ps, m.p2 v = some b → m.heap b = some (.ptrs ps) → m'.heap b = some (.ptrs ps)) : PoolOf m' v q := by
  obtain ⟨b, ps, h1, h3, h4⟩ := h
  exact ⟨b, ps, by rw [h2, h1], hh b _ h1 h3, h4⟩

theorem Inv.start : Inv (Mem.init : Mem τ) := by
  constructor <;> simp [Mem.init, PoolOf]

theorem Inv.lt {m : Mem τ} (hi : Inv m) {b : Nat} (h : m.heap b ≠ none) : b < m.next := by
  by_contra hc
  exact h (hi.fresh b (by omega))

theorem Inv.noLeak {m : Mem τ} (hi : Inv m) : NoLeak m := by
  intro b hb
  rcases hi.all b hb with h | h | ⟨v, r, ps, h1, h2, h3⟩
  · exact .inl h
  · exact .inr (.inl h)
  · exact .inr (.inr ⟨v, r, _, 0, 0, h1, h2, rfl⟩)

theorem Inv.noDangling {m : Mem τ} (hi : Inv m) : NoDangling m := by
  rintro b (⟨v, h⟩ | ⟨v, h⟩ | ⟨v, r, ps, i, off, h1, h2, h3⟩)
  · obtain ⟨xs, hx⟩ := hi.one v b h; rw [hx]; simp
  · obtain ⟨q, b', ps, h1, h2, _⟩ := hi.two v b h
    rw [h] at h1; injection h1 with h1; subst h1
    rw [h2]; simp
  · obtain ⟨q, hq⟩ := hi.two v r h1
    obtain ⟨xs, hx⟩ := hi.pool v q hq
    obtain ⟨b', ps', h1', h2', h3'⟩ := hq
    rw [h1] at h1'; injection h1' with e; subst e
    rw [h2] at h2'; injection h2' with e; injection e with e; subst e
    cases i with
    | zero => simp at h3; rw [← h3.1, hx]; simp
    | succ i =>
      rw [List.getElem?_cons_succ] at h3
      obtain ⟨off', ho⟩ := h3' _ (List.mem_of_getElem? h3)
      injection ho with ho
      rw [(Prod.mk.inj ho).1, hx]; simp

/-- A new number block for a null `T*` variable. -/
theorem Inv.new1 {m : Mem τ} (hi : Inv m) (v : Nat) (xs : List (Option τ)) (hv : m.p1 v = none) :
    Inv { m.push (.vals xs) with p1 := upd m.p1 v (some m.next) } := by
  have hnext : m.heap m.next = none := hi.fresh _ le_rfl
  have hlive : ∀ b, m.heap b ≠ none → b ≠ m.next := fun b hb e => by rw [e] at hb; exact hb hnext
  have hold : ∀ b, m.heap b ≠ none → upd m.heap m.next (some (Block.vals xs)) b = m.heap b :=
    fun b hb => upd_ne _ _ _ (hlive b hb)
  have hP : ∀ w q, PoolOf { m.push (.vals xs) with p1 := upd m.p1 v (some m.next) } w q → PoolOf m w q := by
    rintro w q ⟨b, ps, h1, h2, h3⟩
    refine ⟨b, ps, h1, ?_, h3⟩
    have h2' : upd m.heap m.next (some (Block.vals xs)) b = some (.ptrs (some (q, 0) :: ps)) := h2
    by_cases e : b = m.next
    · subst e; simp at h2'
    · rwa [upd_ne _ _ _ e] at h2'
  have hP' : ∀ w q, PoolOf m w q → PoolOf { m.push (.vals xs) with p1 := upd m.p1 v (some m.next) } w q := by
    intro w q h
    refine h.congr rfl ?_
    intro b ps h1 h2
    exact (hold b (by rw [h2]; simp)).trans h2
  have p1c : ∀ w b, upd m.p1 v (some m.next) w = some b → (w = v ∧ b = m.next) ∨ (w ≠ v ∧ m.p1 w = some b) := by
    intro w b h
    by_cases e : w = v
    · subst e; simp at h; exact .inl ⟨rfl, h.symm⟩
    · rw [upd_ne _ _ _ e] at h; exact .inr ⟨e, h⟩
  constructor
  · intro b hb
    have hb' : m.next + 1 ≤ b := hb
    show upd m.heap m.next (some (Block.vals xs)) b = none
    rw [upd_ne _ _ _ (by omega)]
    exact hi.fresh b (by omega)
  · intro w b h
    show ∃ ys, upd m.heap m.next (some (Block.vals xs)) b = _
    rcases p1c w b h with ⟨_, rfl⟩ | ⟨_, h⟩
    · exact ⟨xs, by simp⟩
    · obtain ⟨ys, hy⟩ := hi.one w b h
      exact ⟨ys, by rw [hold b (by rw [hy]; simp), hy]⟩
  · intro w b h
    obtain ⟨q, hq⟩ := hi.two w b h
    exact ⟨q, hP' w q hq⟩
  · intro w q h
    obtain ⟨ys, hy⟩ := hi.pool w q (hP w q h)
    exact ⟨ys, (hold q (by rw [hy]; simp)).trans hy⟩
  · intro w w' b h h'
    rcases p1c w b h with ⟨e1, e2⟩ | ⟨_, g⟩ <;> rcases p1c w' b h' with ⟨e1', e2'⟩ | ⟨_, g'⟩
    · rw [e1, e1']
    · subst e2; obtain ⟨ys, hy⟩ := hi.one _ _ g'; rw [hnext] at hy; cases hy
    · subst e2'; obtain ⟨ys, hy⟩ := hi.one _ _ g; rw [hnext] at hy; cases hy
    · exact hi.inj1 w w' b g g'
  · intro w w' b h h'; exact hi.inj2 w w' b h h'
  · intro w w' q h h'; exact hi.injq w w' q (hP _ _ h) (hP _ _ h')
  · intro w w' q h h'
    have hq := hP _ _ h'
    rcases p1c w q h with ⟨rfl, rfl⟩ | ⟨_, h⟩
    · obtain ⟨ys, hy⟩ := hi.pool _ _ hq; rw [hnext] at hy; cases hy
    · exact hi.disj w w' q h hq
  · intro b hb
    have hb' : upd m.heap m.next (some (Block.vals xs)) b ≠ none := hb
    by_cases e : b = m.next
    · left; exact ⟨v, by subst e; simp⟩
    · rw [upd_ne _ _ _ e] at hb'
      rcases hi.all b hb' with ⟨w, h⟩ | h | ⟨w, h⟩
      · left
        refine ⟨w, ?_⟩
        show upd m.p1 v (some m.next) w = some b
        rw [upd_ne _ _ _ (by rintro rfl; rw [hv] at h; cases h)]; exact h
      · exact .inr (.inl h)
      · exact .inr (.inr ⟨w, hP' w b h⟩)

/-- A new two-dimensional array for a null `T**` variable. -/
theorem Inv.new2 {m : Mem τ} (hi : Inv m) (v : Nat) (ps : List (Option (Nat × Nat))) (xs : List (Option τ))
    (hv : m.p2 v = none) (hps : ∀ p ∈ ps, ∃ off, p = some (m.next + 1, off)) :
    Inv { (m.push (.ptrs (some (m.next + 1, 0) :: ps))).push (.vals xs) with p2 := upd m.p2 v (some m.next) } := by
  set m' : Mem τ := { (m.push (.ptrs (some (m.next + 1, 0) :: ps))).push (.vals xs) with p2 := upd m.p2 v (some m.next) }
    with hm'
  have hn0 : m.heap m.next = none := hi.fresh _ le_rfl
  have hn1 : m.heap (m.next + 1) = none := hi.fresh _ (by omega)
  have hh0 : m'.heap m.next = some (.ptrs (some (m.next + 1, 0) :: ps)) := by
    show upd (upd m.heap m.next _) (m.next + 1) _ m.next = _
    rw [upd_ne _ _ _ (by omega), upd_same]
  have hh1 : m'.heap (m.next + 1) = some (.vals xs) := by
    show upd (upd m.heap m.next _) (m.next + 1) _ (m.next + 1) = _
    rw [upd_same]
  have hh : ∀ b, b ≠ m.next → b ≠ m.next + 1 → m'.heap b = m.heap b := by
    intro b h0 h1
    show upd (upd m.heap m.next _) (m.next + 1) _ b = _
    rw [upd_ne _ _ _ h1, upd_ne _ _ _ h0]
  have hold : ∀ b, m.heap b ≠ none → m'.heap b = m.heap b := by
    intro b hb
    refine hh b ?_ ?_
    · rintro rfl; exact hb hn0
    · rintro rfl; exact hb hn1
  have hvq : m'.p2 v = some m.next := by show upd _ _ _ v = _; simp
  have hvn : ∀ w, w ≠ v → m'.p2 w = m.p2 w := fun w h => upd_ne _ _ _ h
  have hp1 : m'.p1 = m.p1 := rfl
  have hPv : PoolOf m' v (m.next + 1) := ⟨m.next, ps, hvq, hh0, hps⟩
  have hP : ∀ w q, w ≠ v → PoolOf m w q → PoolOf m' w q := by
    intro w q hw h
    refine h.congr (hvn w hw) ?_
    intro b ps' h1 h2
    rw [hold b (by rw [h2]; simp), h2]
  have hP' : ∀ w q, w ≠ v → PoolOf m' w q → PoolOf m w q := by
    rintro w q hw ⟨b, ps', h1, h2, h3⟩
    rw [hvn w hw] at h1
    obtain ⟨q', b', ps'', h1', h2', h3'⟩ := hi.two w b h1
    rw [h1] at h1'; injection h1' with e; subst e
    rw [hold b (by rw [h2']; simp)] at h2
    exact ⟨b, ps', h1, h2, h3⟩
  have hvold : ∀ q, ¬ PoolOf m v q := by
    rintro q ⟨b, ps', h1, _⟩; rw [hv] at h1; cases h1
  have hq_old : ∀ w q, PoolOf m w q → q ≠ m.next + 1 ∧ q ≠ m.next := by
    intro w q h
    obtain ⟨ys, hy⟩ := hi.pool w q h
    constructor <;> rintro rfl
    · rw [hn1] at hy; cases hy
    · rw [hn0] at hy; cases hy
  have hcase : ∀ w q, PoolOf m' w q → (w = v ∧ q = m.next + 1) ∨ (w ≠ v ∧ PoolOf m w q) := by
    intro w q h
    by_cases e : w = v
    · subst e; exact .inl ⟨rfl, h.unique hPv⟩
    · exact .inr ⟨e, hP' w q e h⟩
  constructor
  · intro b hb
    have hb' : m.next + 1 + 1 ≤ b := hb
    rw [hh b (by omega) (by omega)]
    exact hi.fresh b (by omega)
  · intro w b h
    obtain ⟨ys, hy⟩ := hi.one w b h
    exact ⟨ys, by rw [hold b (by rw [hy]; simp), hy]⟩
  · intro w b h
    by_cases e : w = v
    · subst e; exact ⟨_, hPv⟩
    · rw [hvn w e] at h
      obtain ⟨q, hq⟩ := hi.two w b h
      exact ⟨q, hP w q e hq⟩
  · intro w q h
    rcases hcase w q h with ⟨_, rfl⟩ | ⟨_, h⟩
    · exact ⟨xs, hh1⟩
    · obtain ⟨ys, hy⟩ := hi.pool w q h
      exact ⟨ys, by rw [hold q (by rw [hy]; simp), hy]⟩
  · intro w w' b h h'; exact hi.inj1 w w' b h h'
  · intro w w' b h h'
    have key : ∀ u b, u ≠ v → m'.p2 u = some b → b ≠ m.next := by
      intro u b hu h e
      rw [hvn u hu] at h
      obtain ⟨q, b', ps', h1, h2, _⟩ := hi.two u b h
      rw [h] at h1; injection h1 with h1
      rw [← h1, e, hn0] at h2; cases h2
    by_cases e : w = v <;> by_cases e' : w' = v
    · rw [e, e']
    · subst e; rw [hvq] at h; injection h with h; exact absurd h.symm (key w' b e' h')
    · subst e'; rw [hvq] at h'; injection h' with h'; exact absurd h'.symm (key w b e h)
    · rw [hvn w e] at h; rw [hvn w' e'] at h'; exact hi.inj2 w w' b h h'
  · intro w w' q h h'
    rcases hcase w q h with ⟨e1, e2⟩ | ⟨_, g⟩ <;> rcases hcase w' q h' with ⟨e1', e2'⟩ | ⟨_, g'⟩
    · rw [e1, e1']
    · exact absurd e2 (hq_old w' _ g').1
    · exact absurd e2' (hq_old w q g).1
    · exact hi.injq w w' q g g'
  · intro w w' q h h'
    rcases hcase w' q h' with ⟨rfl, rfl⟩ | ⟨_, h'⟩
    · obtain ⟨ys, hy⟩ := hi.one w _ h; rw [hn1] at hy; cases hy
    · exact hi.disj w w' q h h'
  · intro b hb
    by_cases e0 : b = m.next
    · subst e0; exact .inr (.inl ⟨v, hvq⟩)
    by_cases e1 : b = m.next + 1
    · subst e1; exact .inr (.inr ⟨v, hPv⟩)
    rw [hh b e0 e1] at hb
    rcases hi.all b hb with h | ⟨w, h⟩ | ⟨w, h⟩
    · exact .inl h
    · have hw : w ≠ v := by rintro rfl; rw [hv] at h; cases h
      exact .inr (.inl ⟨w, by rw [hvn w hw]; exact h⟩)
    · have hw : w ≠ v := by rintro rfl; exact hvold _ h
      exact .inr (.inr ⟨w, hP w b hw h⟩)

/-- Overwriting the contents of number blocks. -/
theorem Inv.store {m : Mem τ} (hi : Inv m) (b i : Nat) (x : τ) {m' : Mem τ} (h : m.store b i x = .ok m') : Inv m' := by
  unfold Mem.store at h
  cases hb : m.heap b with
  | none => rw [hb] at h; cases h
  | some blk =>
    rw [hb] at h
    cases blk with
    | ptrs ps => cases h
    | vals xs =>
      simp only at h
      split_ifs at h with hl
      injection h with h
      subst h
      have hk : ∀ b' ps, m.heap b' = some (.ptrs ps) ↔
          upd m.heap b (some (Block.vals (xs.set i (some x)))) b' = some (.ptrs ps) := by
        intro b' ps
        by_cases e : b' = b
        · subst e; rw [hb]; simp
        · rw [upd_ne _ _ _ e]
      have hv : ∀ b', (∃ ys, m.heap b' = some (.vals ys)) →
          ∃ ys, upd m.heap b (some (Block.vals (xs.set i (some x)))) b' = some (.vals ys) := by
        intro b' ⟨ys, hy⟩
        by_cases e : b' = b
        · subst e; exact ⟨_, by simp; rfl⟩
        · exact ⟨ys, by rw [upd_ne _ _ _ e]; exact hy⟩
      have hP : ∀ w q, PoolOf { m with heap := upd m.heap b (some (Block.vals (xs.set i (some x)))) } w q ↔ PoolOf m w q := by
        intro w q
        constructor
        · rintro ⟨b', ps, h1, h2, h3⟩; exact ⟨b', ps, h1, (hk _ _).2 h2, h3⟩
        · rintro ⟨b', ps, h1, h2, h3⟩; exact ⟨b', ps, h1, (hk _ _).1 h2, h3⟩
      have hn : ∀ b', upd m.heap b (some (Block.vals (xs.set i (some x)))) b' = none ↔ m.heap b' = none := by
        intro b'
        by_cases e : b' = b
        · subst e; rw [hb]; simp
        · rw [upd_ne _ _ _ e]
      constructor
      · intro b' h'; exact (hn b').2 (hi.fresh b' h')
      · intro v b' h'; exact hv b' (hi.one v b' h')
      · intro v b' h'
        obtain ⟨q, hq⟩ := hi.two v b' h'
        exact ⟨q, (hP v q).2 hq⟩
      · intro v q h'; exact hv q (hi.pool v q ((hP v q).1 h'))
      · exact hi.inj1
      · exact hi.inj2
      · intro v w q h1 h2; exact hi.injq v w q ((hP _ _).1 h1) ((hP _ _).1 h2)
      · intro v w q h1 h2; exact hi.disj v w q h1 ((hP _ _).1 h2)
      · intro b' h'
        rcases hi.all b' (fun e => h' ((hn b').2 e)) with h | h | ⟨v, h⟩
        · exact .inl h
        · exact .inr (.inl h)
        · exact .inr (.inr ⟨v, (hP _ _).2 h⟩)

theorem Inv.set2 {m m' : Mem τ} (hi : Inv m) (v i j : Nat) (x : τ) (h : set2 m v i j x = .ok m') : Inv m' := by
  obtain ⟨a, _, h⟩ := Out.bind_ok h
  exact hi.store _ _ _ h

theorem Inv.set1 {m m' : Mem τ} (hi : Inv m) (v i : Nat) (x : τ) (h : set1 m v i x = .ok m') : Inv m' := by
  unfold Arr.set1 at h
  split at h
  · cases h
  · exact hi.store _ _ _ h

theorem updNone_self (f : Nat → Option Nat) (v : Nat) (h : f v = none) : upd f v none = f := by
  funext j
  by_cases e : j = v
  · subst e; rw [upd_same, h]
  · rw [upd_ne _ _ _ e]

/-- Releasing a `T*` variable succeeds and keeps the invariant. -/
theorem Inv.rel1 {m : Mem τ} (hi : Inv m) (v : Nat) : ∃ m', rel1 m v = .ok m' ∧ Inv m' ∧ m'.p1 v = none ∧
    (∀ w, w ≠ v → m'.p1 w = m.p1 w) ∧ m'.p2 = m.p2 := by
  unfold Arr.rel1
  cases hv : m.p1 v with
  | none => exact ⟨m, rfl, hi, hv, fun _ _ => rfl, rfl⟩
  | some b =>
    obtain ⟨xs, hx⟩ := hi.one v b hv
    have hf : m.free b = .ok { m with heap := upd m.heap b none } := by unfold Mem.free; rw [hx]
    refine ⟨{ m with heap := upd m.heap b none, p1 := upd m.p1 v none }, ?_, ?_, by simp, fun w h => upd_ne _ _ _ h, rfl⟩
    · show (m.free b >>= fun m => _) = _
      rw [hf]; rfl
    have hnb : ∀ w q, PoolOf m w q → q ≠ b := by
      rintro w q h rfl; exact hi.disj v w q hv h
    have hk : ∀ b' ps, m.heap b' = some (.ptrs ps) ↔ upd m.heap b none b' = some (.ptrs ps) := by
      intro b' ps
      by_cases e : b' = b
      · subst e; rw [hx]; simp
      · rw [upd_ne _ _ _ e]
    have hP : ∀ w q, PoolOf { m with heap := upd m.heap b none, p1 := upd m.p1 v none } w q ↔ PoolOf m w q := by
      intro w q
      constructor
      · rintro ⟨b', ps, h1, h2, h3⟩; exact ⟨b', ps, h1, (hk _ _).2 h2, h3⟩
      · rintro ⟨b', ps, h1, h2, h3⟩; exact ⟨b', ps, h1, (hk _ _).1 h2, h3⟩
    have hp1 : ∀ w b', upd m.p1 v none w = some b' → w ≠ v ∧ m.p1 w = some b' := by
      intro w b' h
      have hw : w ≠ v := by rintro rfl; simp at h
      rw [upd_ne _ _ _ hw] at h
      exact ⟨hw, h⟩
    constructor
    · intro b' h'
      show upd m.heap b none b' = none
      by_cases e : b' = b
      · subst e; simp
      · rw [upd_ne _ _ _ e]; exact hi.fresh b' h'
    · intro w b' h'
      obtain ⟨hw, g⟩ := hp1 w b' h'
      obtain ⟨ys, hy⟩ := hi.one w b' g
      refine ⟨ys, ?_⟩
      show upd m.heap b none b' = _
      have e : b' ≠ b := fun e => hw (hi.inj1 w v b' g (by rw [e]; exact hv))
      rw [upd_ne _ _ _ e]; exact hy
    · intro w b' h'
      obtain ⟨q, hq⟩ := hi.two w b' h'
      exact ⟨q, (hP w q).2 hq⟩
    · intro w q h'
      have hq := (hP w q).1 h'
      obtain ⟨ys, hy⟩ := hi.pool w q hq
      refine ⟨ys, ?_⟩
      show upd m.heap b none q = _
      rw [upd_ne _ _ _ (hnb w q hq)]; exact hy
    · intro w w' b' h1 h2; exact hi.inj1 w w' b' (hp1 w b' h1).2 (hp1 w' b' h2).2
    · exact hi.inj2
    · intro w w' q h1 h2; exact hi.injq w w' q ((hP _ _).1 h1) ((hP _ _).1 h2)
    · intro w w' q h1 h2; exact hi.disj w w' q (hp1 w q h1).2 ((hP _ _).1 h2)
    · intro b' h'
      have h'' : upd m.heap b none b' ≠ none := h'
      have e : b' ≠ b := by rintro rfl; simp at h''
      rw [upd_ne _ _ _ e] at h''
      rcases hi.all b' h'' with ⟨w, h⟩ | h | ⟨w, h⟩
      · left
        refine ⟨w, ?_⟩
        show upd m.p1 v none w = _
        rw [upd_ne _ _ _ (by rintro rfl; rw [hv] at h; injection h with h; exact e h.symm)]; exact h
      · exact .inr (.inl h)
      · exact .inr (.inr ⟨w, (hP _ _).2 h⟩)

/-- Releasing a `T**` variable succeeds and keeps the invariant. -/
theorem Inv.rel2 {m : Mem τ} (hi : Inv m) (v : Nat) : ∃ m', rel2 m v = .ok m' ∧ Inv m' ∧ m'.p2 v = none ∧
    (∀ w, w ≠ v → m'.p2 w = m.p2 w) ∧ m'.p1 = m.p1 := by
  unfold Arr.rel2
  cases hv : m.p2 v with
  | none => exact ⟨m, rfl, hi, hv, fun _ _ => rfl, rfl⟩
  | some b =>
    obtain ⟨q, hq⟩ := hi.two v b hv
    obtain ⟨xs, hx⟩ := hi.pool v q hq
    have hq0 := hq
    obtain ⟨b', ps, h1, h2, h3⟩ := hq
    rw [hv] at h1; injection h1 with h1; subst h1
    have hqb : q ≠ b := by rintro rfl; rw [hx] at h2; cases h2
    have hf : m.free q = .ok { m with heap := upd m.heap q none } := by unfold Mem.free; rw [hx]
    have hf2 : Mem.free { m with heap := upd m.heap q none } b =
        .ok { m with heap := upd (upd m.heap q none) b none } := by
      unfold Mem.free
      show (match upd m.heap q none b with | none => _ | some _ => _) = _
      rw [upd_ne _ _ _ hqb.symm, h2]
    refine ⟨{ m with heap := upd (upd m.heap q none) b none, p2 := upd m.p2 v none }, ?_, ?_, by simp,
      fun w h => upd_ne _ _ _ h, rfl⟩
    · dsimp only
      rw [h2]
      simp only [List.getElem?_cons_zero]
      rw [hf, Out.ok_bind, hf2, Out.ok_bind]
    have hh : ∀ c, c ≠ q → c ≠ b → upd (upd m.heap q none) b none c = m.heap c := by
      intro c h0 h1; rw [upd_ne _ _ _ h1, upd_ne _ _ _ h0]
    have hqn : upd (upd m.heap q none) b none q = none := by rw [upd_ne _ _ _ hqb, upd_same]
    have hp2 : ∀ w b', upd m.p2 v none w = some b' → w ≠ v ∧ m.p2 w = some b' := by
      intro w b' h
      have hw : w ≠ v := by rintro rfl; simp at h
      rw [upd_ne _ _ _ hw] at h
      exact ⟨hw, h⟩
    have hrow : ∀ w b', w ≠ v → m.p2 w = some b' → b' ≠ b ∧ b' ≠ q := by
      intro w b' hw h
      refine ⟨by rintro rfl; exact hw (hi.inj2 w v b' h hv), ?_⟩
      rintro rfl
      obtain ⟨_, b'', ps', h1', h2', _⟩ := hi.two w b' h
      rw [h] at h1'; injection h1' with h1'; subst h1'
      rw [hx] at h2'; cases h2'
    have hP : ∀ w q', PoolOf { m with heap := upd (upd m.heap q none) b none, p2 := upd m.p2 v none } w q' ↔
        w ≠ v ∧ PoolOf m w q' := by
      intro w q'
      constructor
      · rintro ⟨b', ps', h1', h2', h3'⟩
        obtain ⟨hw, hb'⟩ := hp2 w b' h1'
        obtain ⟨e1, e2⟩ := hrow w b' hw hb'
        refine ⟨hw, b', ps', hb', ?_, h3'⟩
        rw [← hh b' e2 e1]; exact h2'
      · rintro ⟨hw, b', ps', h1', h2', h3'⟩
        obtain ⟨e1, e2⟩ := hrow w b' hw h1'
        refine ⟨b', ps', ?_, ?_, h3'⟩
        · show upd m.p2 v none w = _
          rw [upd_ne _ _ _ hw]; exact h1'
        · show upd (upd m.heap q none) b none b' = _
          rw [hh b' e2 e1]; exact h2'
    have hpool : ∀ w q', w ≠ v → PoolOf m w q' → q' ≠ q ∧ q' ≠ b := by
      intro w q' hw h
      refine ⟨by rintro rfl; exact hw (hi.injq w v q' h hq0), ?_⟩
      rintro rfl
      obtain ⟨ys, hy⟩ := hi.pool w q' h
      rw [h2] at hy; cases hy
    constructor
    · intro c hc
      show upd (upd m.heap q none) b none c = none
      by_cases e1 : c = b
      · subst e1; simp
      · by_cases e2 : c = q
        · subst e2; exact hqn
        · rw [hh c e2 e1]; exact hi.fresh c hc
    · intro w c hc
      obtain ⟨ys, hy⟩ := hi.one w c hc
      refine ⟨ys, ?_⟩
      show upd (upd m.heap q none) b none c = _
      rw [hh c (by rintro rfl; exact hi.disj w v c hc hq0) (by rintro rfl; rw [h2] at hy; cases hy)]; exact hy
    · intro w c hc
      obtain ⟨hw, hc⟩ := hp2 w c hc
      obtain ⟨q', hq'⟩ := hi.two w c hc
      exact ⟨q', (hP w q').2 ⟨hw, hq'⟩⟩
    · intro w q' h'
      obtain ⟨hw, h'⟩ := (hP w q').1 h'
      obtain ⟨ys, hy⟩ := hi.pool w q' h'
      obtain ⟨e1, e2⟩ := hpool w q' hw h'
      refine ⟨ys, ?_⟩
      show upd (upd m.heap q none) b none q' = _
      rw [hh q' e1 e2]; exact hy
    · exact hi.inj1
    · intro w w' c h1 h2'; exact hi.inj2 w w' c (hp2 w c h1).2 (hp2 w' c h2').2
    · intro w w' q' h1 h2'; exact hi.injq w w' q' ((hP _ _).1 h1).2 ((hP _ _).1 h2').2
    · intro w w' q' h1 h2'; exact hi.disj w w' q' h1 ((hP _ _).1 h2').2
    · intro c hc
      have hc' : upd (upd m.heap q none) b none c ≠ none := hc
      have e1 : c ≠ b := by rintro rfl; simp at hc'
      have e2 : c ≠ q := by rintro rfl; exact hc' hqn
      rw [hh c e2 e1] at hc'
      rcases hi.all c hc' with h | ⟨w, h⟩ | ⟨w, h⟩
      · exact .inl h
      · refine .inr (.inl ⟨w, ?_⟩)
        show upd m.p2 v none w = _
        rw [upd_ne _ _ _ (by rintro rfl; rw [hv] at h; injection h with h; exact e1 h.symm)]; exact h
      · refine .inr (.inr ⟨w, (hP _ _).2 ⟨?_, h⟩⟩)
        rintro rfl
        exact e2 (h.unique hq0)

theorem rowPtrs_get (q c : Nat) : ∀ (n off i : Nat), (rowPtrs q c off n)[i]? =
    if i < n then some (some (q, off + i * c)) else none
  | 0, off, i => by simp [rowPtrs]
  | n + 1, off, 0 => by simp [rowPtrs]
  | n + 1, off, i + 1 => by
    rw [rowPtrs, List.getElem?_cons_succ, rowPtrs_get q c n]
    by_cases h : i < n
    · rw [if_pos h, if_pos (by omega)]; congr 3; ring
    · rw [if_neg h, if_neg (by omega)]

theorem rowPtrs_all (q c : Nat) : ∀ (n off : Nat), ∀ p ∈ rowPtrs q c off n, ∃ o, p = some (q, o)
  | 0, _ => by simp [rowPtrs]
  | n + 1, off => by
    intro p hp
    rw [rowPtrs] at hp
    rcases List.mem_cons.1 hp with rfl | hp
    · exact ⟨off, rfl⟩
    · exact rowPtrs_all q c n _ p hp

theorem Inv.init1 {m : Mem τ} (hi : Inv m) (v : Nat) (row : Int) (x : τ) (ok f : Bool) (m' : Mem τ)
    (e : init1 m v row x ok = (f, m')) : Inv m' := by
  unfold Arr.init1 at e
  cases hv : m.p1 v with
  | some b => rw [hv] at e; rw [← (Prod.mk.inj e).2]; exact hi
  | none =>
    rw [hv] at e
    simp only at e
    split_ifs at e
    · rw [← (Prod.mk.inj e).2, updNone_self _ _ hv]; exact hi
    · rw [← (Prod.mk.inj e).2]; exact hi.new1 v _ hv
    · rw [← (Prod.mk.inj e).2, updNone_self _ _ hv]; exact hi

theorem Inv.init1Copy {m : Mem τ} (hi : Inv m) (cast : σ → τ) (v : Nat) (row : Int) (src : Ptr σ) (ok f : Bool)
    (m' : Mem τ) (e : init1Copy cast m v row src ok = .ok (f, m')) : Inv m' := by
  unfold Arr.init1Copy at e
  cases hv : m.p1 v with
  | some b => rw [hv] at e; injection e with e; rw [← (Prod.mk.inj e).2]; exact hi
  | none =>
    rw [hv] at e
    simp only at e
    split_ifs at e
    · injection e with e; rw [← (Prod.mk.inj e).2, updNone_self _ _ hv]; exact hi
    · cases src with
      | none => injection e with e; rw [← (Prod.mk.inj e).2]; exact hi.new1 v _ hv
      | some s =>
        obtain ⟨xs, _, e⟩ := Out.bind_ok e
        injection e with e; rw [← (Prod.mk.inj e).2]; exact hi.new1 v _ hv

theorem rowPtrs_pos (q c off : Nat) {n : Nat} (h : 0 < n) :
    rowPtrs q c off n = some (q, off) :: rowPtrs q c (off + c) (n - 1) := by
  obtain ⟨k, rfl⟩ := Nat.exists_eq_succ_of_ne_zero h.ne'
  rfl

theorem Inv.init2 {m : Mem τ} (hi : Inv m) (v : Nat) (row col : Int) (x : τ) (ok f : Bool) (m' : Mem τ)
    (hr : 0 < row) (hc : 0 ≤ col) (e : init2 m v row col x ok true = .ok (f, m')) : Inv m' := by
  unfold Arr.init2 at e
  cases hv : m.p2 v with
  | some b => rw [hv] at e; injection e with e; rw [← (Prod.mk.inj e).2]; exact hi
  | none =>
    rw [hv] at e
    simp only at e
    by_cases h1 : row < 0 ∨ (!ok) = true
    · rw [if_pos h1] at e
      injection e with e; rw [← (Prod.mk.inj e).2, updNone_self _ _ hv]; exact hi
    · rw [if_neg h1] at e
      obtain ⟨n, hn, e⟩ := Out.bind_ok e
      have hn' : n = row * col := by
        unfold mulInt at hn; split_ifs at hn; injection hn with hn; exact hn.symm
      have hn0 : 0 ≤ n := by rw [hn']; positivity
      rw [if_neg (by simp; exact hn0)] at e
      injection e with e; rw [← (Prod.mk.inj e).2]
      rw [rowPtrs_pos _ _ _ (show 0 < row.toNat by omega)]
      exact hi.new2 v _ _ hv (rowPtrs_all _ _ _ _)

theorem Inv.copyRow {m m' : Mem τ} (cast : σ → τ) (v i : Nat) (src : List σ) (n : Nat) (hi : Inv m)
    (h : copyRow cast v i src n m = .ok m') : Inv m' := by
  induction n generalizing m' with
  | zero => injection h with h; subst h; exact hi
  | succ n ih =>
    obtain ⟨m1, h1, h⟩ := Out.bind_ok h
    obtain ⟨y, _, h⟩ := Out.bind_ok h
    exact (ih h1).set2 _ _ _ _ h

theorem Inv.copyRows {m m' : Mem τ} (cast : σ → τ) (v : Nat) (src : List (List σ)) (c n : Nat) (hi : Inv m)
    (h : copyRows cast v src c n m = .ok m') : Inv m' := by
  induction n generalizing m' with
  | zero => injection h with h; subst h; exact hi
  | succ n ih =>
    obtain ⟨m1, h1, h⟩ := Out.bind_ok h
    obtain ⟨y, _, h⟩ := Out.bind_ok h
    exact (ih h1).copyRow cast v n y c h

theorem Inv.init2Copy {m : Mem τ} (hi : Inv m) (cast : σ → τ) (v : Nat) (row col : Int) (src : Ptr (List σ))
    (ok f : Bool) (m' : Mem τ) (hr : 0 < row) (hc : 0 ≤ col)
    (e : init2Copy cast m v row col src ok true = .ok (f, m')) : Inv m' := by
  obtain ⟨r0, _, e⟩ := Out.bind_ok e
  obtain ⟨x0, _, e⟩ := Out.bind_ok e
  obtain ⟨⟨f1, m1⟩, h1, e⟩ := Out.bind_ok e
  have hi1 := hi.init2 v row col _ ok f1 m1 hr hc h1
  simp only at e
  split_ifs at e
  · injection e with e; rw [← (Prod.mk.inj e).2]; exact hi1
  · obtain ⟨m2, h2, e⟩ := Out.bind_ok e
    injection e with e; rw [← (Prod.mk.inj e).2]
    exact hi1.copyRows cast v _ _ _ h2

theorem irrPtrs_all (q : Nat) (len : Int) : ∀ (cs : List Int) (pos : Int) (ps : List (Option (Nat × Nat))),
    irrPtrs q len pos cs = .ok ps → ∀ p ∈ ps, ∃ o, p = some (q, o)
  | [], pos, ps, h => by injection h with h; subst h; simp
  | c :: cs, pos, ps, h => by
    unfold irrPtrs at h
    split_ifs at h
    obtain ⟨ps', h1, h⟩ := Out.bind_ok h
    injection h with h; subst h
    intro p hp
    rcases List.mem_cons.1 hp with rfl | hp
    · exact ⟨_, rfl⟩
    · exact irrPtrs_all q len cs _ ps' h1 p hp

theorem irrCols_length (toInt : σ → Int) (src : List σ) : ∀ (n : Nat) (idx mx : Int) (r : List Int × Int × Int),
    irrCols toInt src n idx mx = .ok r → r.1.length = n
  | 0, idx, mx, r, h => by injection h with h; subst h; rfl
  | n + 1, idx, mx, r, h => by
    obtain ⟨x, _, h⟩ := Out.bind_ok h
    obtain ⟨⟨cs, i', m'⟩, h1, h⟩ := Out.bind_ok h
    injection h with h; subst h
    have := irrCols_length toInt src n _ _ _ h1
    simpa using this

theorem Inv.init2Irr {m : Mem τ} (hi : Inv m) (cast : σ → τ) (toInt : σ → Int) (v : Nat) (src : List σ)
    (ok f : Bool) (rows mx : Int) (m' : Mem τ) (hv : m.p2 v = none) (hr : rows ≠ 0)
    (e : init2Irr cast toInt m v src ok true = .ok (f, rows, mx, m')) : Inv m' := by
  obtain ⟨r, _, e⟩ := Out.bind_ok e
  simp only at e
  by_cases h1 : toInt r < 0 ∨ (!ok) = true
  · rw [if_pos h1] at e
    injection e with e
    have := (Prod.mk.inj (Prod.mk.inj (Prod.mk.inj e).2).2).2
    rw [← this, updNone_self _ _ hv]; exact hi
  · rw [if_neg h1] at e
    obtain ⟨⟨cs, idx, mx'⟩, h2, e⟩ := Out.bind_ok e
    simp only at e
    split_ifs at e with h3
    obtain ⟨xs, h4, e⟩ := Out.bind_ok e
    obtain ⟨ps, h5, e⟩ := Out.bind_ok e
    injection e with e
    have e1 := (Prod.mk.inj (Prod.mk.inj e).2).1
    have e2 := (Prod.mk.inj (Prod.mk.inj (Prod.mk.inj e).2).2).2
    rw [← e2]
    have hl := irrCols_length toInt src _ _ _ _ h2
    cases cs with
    | nil => simp at hl; simp only [not_or, not_lt] at h1; omega
    | cons c cs =>
      unfold irrPtrs at h5
      split_ifs at h5
      obtain ⟨ps', h6, h5⟩ := Out.bind_ok h5
      injection h5 with h5; subst h5
      exact hi.new2 v ps' xs hv (irrPtrs_all _ _ _ _ _ h6)

theorem Spec.Reachable.inv {m : Mem τ} (h : Reachable m) : Inv m := by
  induction h with
  | start => exact Inv.start
  | init1 _ v row x ok f e ih => exact ih.init1 v row x ok f _ e
  | init1Copy _ cast v row src ok f e ih => exact ih.init1Copy cast v row src ok f _ e
  | init2 _ v row col x ok f hr hc e ih => exact ih.init2 v row col x ok f _ hr hc e
  | init2Copy _ cast v row col src ok f hr hc e ih => exact ih.init2Copy cast v row col src ok f _ hr hc e
  | init2Irr _ cast toInt v src ok f rows mx hnull hr e ih => exact ih.init2Irr cast toInt v src ok f rows mx _ hnull hr e
  | rel1 _ v e ih =>
    obtain ⟨m', h1, h2, _⟩ := ih.rel1 v
    rw [h1] at e; injection e with e; subst e; exact h2
  | rel2 _ v e ih =>
    obtain ⟨m', h1, h2, _⟩ := ih.rel2 v
    rw [h1] at e; injection e with e; subst e; exact h2
  | set1 _ v i x e ih => exact ih.set1 v i x e
  | set2 _ v i j x e ih => exact ih.set2 v i j x e

end CCGL.Arr
