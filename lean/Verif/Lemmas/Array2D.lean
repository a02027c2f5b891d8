import Verif.Model.Array2D
import Verif.Lemmas.Array
import Mathlib.Logic.Equiv.Basic
/-!
# Lemmas about `Array2D`: who owns which block
-/
namespace CCGL.Arr2
open CCGL.Arr
open CCGL.Spec.Arr2 (Op Reply Grid State put newGrid)

variable {τ : Type}

/-- Block `b` holds the row pointers and `q` the elements of grid `g`. -/
structure Holds (m : Mem τ) (b q : Nat) (g : Grid τ) : Prop where
  rpos : 0 < g.rows
  cpos : 0 < g.cols
  ne : b ≠ q
  size : g.rows * g.cols < 2 ^ 32
  ptrs : m.heap b = some (.ptrs (rowPtrs q g.cols 0 g.rows))
  vals : ∃ xs, m.heap q = some (.vals xs) ∧ xs.length = g.rows * g.cols ∧
    ∀ i j, i < g.rows → j < g.cols → xs[i * g.cols + j]? = some (some (g.cell i j))

variable {κ : Type} [DecidableEq κ]

abbrev Own (κ τ : Type) := κ → Option (Nat × Nat × Grid τ)

def fput (own : Own κ τ) (k : κ) (v : Option (Nat × Nat × Grid τ)) : Own κ τ := fun l => if l = k then v else own l

@[simp] theorem fput_same (own : Own κ τ) (k : κ) (v) : fput own k v k = v := by simp [fput]
theorem fput_ne (own : Own κ τ) {k l : κ} (v) (h : l ≠ k) : fput own k v l = own l := by simp [fput, h]

/-- Every live block belongs to exactly one owner. -/
structure HI (m : Mem τ) (own : Own κ τ) : Prop where
  holds : ∀ k b q g, own k = some (b, q, g) → Holds m b q g
  disj : ∀ k l b q g b' q' g', k ≠ l → own k = some (b, q, g) → own l = some (b', q', g') → b ≠ b' ∧ b ≠ q' ∧ q ≠ b' ∧ q ≠ q'
  live : ∀ a, m.heap a ≠ none → ∃ k b q g, own k = some (b, q, g) ∧ (a = b ∨ a = q)
  lt : ∀ a, m.heap a ≠ none → a < m.next

theorem HI.map {m : Mem τ} {own : Own κ τ} (h : HI m own) (e : κ ≃ κ) : HI m (own ∘ e) where
  holds := fun k => h.holds (e k)
  disj := fun k l b q g b' q' g' hne => h.disj (e k) (e l) b q g b' q' g' (fun x => hne (e.injective x))
  live := fun a ha => by
    obtain ⟨k, b, q, g, h1, h2⟩ := h.live a ha
    exact ⟨e.symm k, b, q, g, by simpa using h1, h2⟩
  lt := h.lt

theorem linkRows_ok (pool col len : Nat) : ∀ (n off : Nat), off + n * col ≤ len → linkRows pool col len off n = .ok (rowPtrs pool col off n)
  | 0, off, _ => rfl
  | n + 1, off, h => by
    have h' : off + col + n * col ≤ len := by rw [Nat.add_mul] at h; omega
    have := linkRows_ok pool col len n (off + col) h'
    unfold linkRows
    rw [if_pos (by omega), this]
    rfl

theorem Holds.congr {m m' : Mem τ} {b q : Nat} {g : Grid τ} (h : Holds m b q g) (hb : m'.heap b = m.heap b) (hq : m'.heap q = m.heap q) :
    Holds m' b q g :=
  ⟨h.rpos, h.cpos, h.ne, h.size, hb.trans h.ptrs, by rw [hq]; exact h.vals⟩

theorem Holds.liveB {m : Mem τ} {b q : Nat} {g : Grid τ} (h : Holds m b q g) : m.heap b ≠ none := by rw [h.ptrs]; simp
theorem Holds.liveQ {m : Mem τ} {b q : Nat} {g : Grid τ} (h : Holds m b q g) : m.heap q ≠ none := by
  obtain ⟨xs, h, _⟩ := h.vals; rw [h]; simp

/-- A new pair of blocks. -/
theorem HI.create {m : Mem τ} {own : Own κ τ} (h : HI m own) (k : κ) (hk : own k = none) (r c : Nat) (x : τ) (hr : 0 < r) (hc : 0 < c)
    (hs : r * c < 2 ^ 32) :
    ∃ p m', create2D m r c x true = .ok (p, m') ∧ HI m' (fput own k (some (p, p + 1, ⟨r, c, fun _ _ => x⟩))) := by
  refine ⟨m.next, (m.push (.ptrs (rowPtrs (m.next + 1) c 0 r))).push (filled (r * c) x), ?_, ?_⟩
  · unfold create2D
    simp only [Bool.not_true, Bool.false_eq_true, if_false]
    rw [Nat.mod_eq_of_lt hs, linkRows_ok _ _ _ _ _ (by omega)]
    rfl
  · set m' := (m.push (.ptrs (rowPtrs (m.next + 1) c 0 r))).push (filled (r * c) x) with hm'
    have e1 : ∀ a, a ≠ m.next → a ≠ m.next + 1 → m'.heap a = m.heap a := by
      intro a h1 h2
      rw [hm']
      show upd (upd m.heap m.next _) (m.next + 1) _ a = _
      rw [upd_ne _ _ _ h2, upd_ne _ _ _ h1]
    have e2 : m'.heap m.next = some (.ptrs (rowPtrs (m.next + 1) c 0 r)) := by
      rw [hm']
      show upd (upd m.heap m.next _) (m.next + 1) _ m.next = _
      rw [upd_ne _ _ _ (by omega), upd_same]
    have e3 : m'.heap (m.next + 1) = some (filled (r * c) x) := by
      rw [hm']
      show upd (upd m.heap m.next _) (m.next + 1) _ (m.next + 1) = _
      rw [upd_same]
    have old : ∀ l b q g, own l = some (b, q, g) → b < m.next ∧ q < m.next := fun l b q g hl =>
      ⟨h.lt _ (h.holds l b q g hl).liveB, h.lt _ (h.holds l b q g hl).liveQ⟩
    refine ⟨?_, ?_, ?_, ?_⟩
    · intro l b q g hl
      by_cases hlk : l = k
      · subst hlk
        rw [fput_same] at hl
        simp only [Option.some.injEq, Prod.mk.injEq] at hl
        obtain ⟨rfl, rfl, rfl⟩ := hl
        refine ⟨hr, hc, by omega, hs, e2, _, e3, by simp, ?_⟩
        intro i j hi hj
        dsimp only at hi hj ⊢
        have : i * c + j < r * c := by
          calc i * c + j < i * c + c := by omega
            _ = (i + 1) * c := by ring
            _ ≤ r * c := Nat.mul_le_mul_right _ hi
        rw [List.getElem?_replicate, if_pos this]
      · rw [fput_ne _ _ hlk] at hl
        obtain ⟨h1, h2⟩ := old l b q g hl
        exact (h.holds l b q g hl).congr (e1 _ (by omega) (by omega)) (e1 _ (by omega) (by omega))
    · intro l l' b q g b' q' g' hne hl hl'
      by_cases hlk : l = k
      · subst hlk
        rw [fput_same] at hl
        rw [fput_ne _ _ (Ne.symm hne)] at hl'
        simp only [Option.some.injEq, Prod.mk.injEq] at hl
        obtain ⟨rfl, rfl, rfl⟩ := hl
        have := old _ _ _ _ hl'
        omega
      · rw [fput_ne _ _ hlk] at hl
        by_cases hlk' : l' = k
        · subst hlk'
          rw [fput_same] at hl'
          simp only [Option.some.injEq, Prod.mk.injEq] at hl'
          obtain ⟨rfl, rfl, rfl⟩ := hl'
          have := old _ _ _ _ hl
          omega
        · rw [fput_ne _ _ hlk'] at hl'
          exact h.disj _ _ _ _ _ _ _ _ hne hl hl'
    · intro a ha
      by_cases h1 : a = m.next
      · exact ⟨k, _, _, _, fput_same _ _ _, .inl h1⟩
      by_cases h2 : a = m.next + 1
      · exact ⟨k, _, _, _, fput_same _ _ _, .inr h2⟩
      rw [e1 a h1 h2] at ha
      obtain ⟨l, b, q, g, hl, hab⟩ := h.live a ha
      refine ⟨l, b, q, g, ?_, hab⟩
      rw [fput_ne _ _ (by rintro rfl; rw [hk] at hl; cases hl)]
      exact hl
    · intro a ha
      show a < m.next + 1 + 1
      by_cases h1 : a = m.next
      · omega
      by_cases h2 : a = m.next + 1
      · omega
      rw [e1 a h1 h2] at ha
      have := h.lt a ha
      omega

/-- The address of an element. -/
theorem Holds.addr {m : Mem τ} {b q : Nat} {g : Grid τ} (h : Holds m b q g) (i j : Nat) (hi : i < g.rows) :
    addr m (some b) i j = .ok (q, i * g.cols + j) := by
  unfold Arr2.addr
  simp only
  rw [h.ptrs]
  simp only
  rw [rowPtrs_get, if_pos hi]
  simp

/-- An element changed in one grid. -/
theorem HI.store {m : Mem τ} {own : Own κ τ} (h : HI m own) (k : κ) (b q : Nat) (g : Grid τ) (hk : own k = some (b, q, g)) (i j : Nat)
    (hi : i < g.rows) (hj : j < g.cols) (x : τ) :
    ∃ m', m.store q (i * g.cols + j) x = .ok m' ∧
      HI m' (fput own k (some (b, q, { g with cell := fun a c => if a = i ∧ c = j then x else g.cell a c }))) := by
  have H := h.holds k b q g hk
  obtain ⟨xs, e1, e2, e3⟩ := H.vals
  have hlt : i * g.cols + j < xs.length := by
    rw [e2]
    calc i * g.cols + j < i * g.cols + g.cols := by omega
      _ = (i + 1) * g.cols := by ring
      _ ≤ g.rows * g.cols := Nat.mul_le_mul_right _ hi
  refine ⟨{ m with heap := upd m.heap q (some (.vals (xs.set (i * g.cols + j) (some x)))) }, ?_, ?_⟩
  · unfold Mem.store
    rw [e1]
    simp only
    rw [if_pos hlt]
  · have hne : ∀ a, (upd m.heap q (some (.vals (xs.set (i * g.cols + j) (some x)))) a ≠ none) ↔ m.heap a ≠ none := by
      intro a
      by_cases ha : a = q
      · subst ha; simp [e1]
      · rw [upd_ne _ _ _ ha]
    refine ⟨?_, ?_, ?_, fun a ha => h.lt a ((hne a).1 ha)⟩
    · intro l b' q' g' hl
      by_cases hlk : l = k
      · subst hlk
        rw [fput_same] at hl
        simp only [Option.some.injEq, Prod.mk.injEq] at hl
        obtain ⟨rfl, rfl, rfl⟩ := hl
        refine ⟨H.rpos, H.cpos, H.ne, H.size, ?_, ⟨_, upd_same _ _ _, ?_, ?_⟩⟩
        · show upd _ _ _ b = _
          rw [upd_ne _ _ _ H.ne]; exact H.ptrs
        · simpa using e2
        · intro a c ha hc
          dsimp only at ha hc ⊢
          by_cases hac : a = i ∧ c = j
          · obtain ⟨rfl, rfl⟩ := hac
            rw [if_pos ⟨rfl, rfl⟩, List.getElem?_set_self hlt]
          · rw [if_neg hac, List.getElem?_set_ne]
            · exact e3 a c ha hc
            · intro e
              apply hac
              have h1 : (i * g.cols + j) / g.cols = (a * g.cols + c) / g.cols := by rw [e]
              have h2 : (i * g.cols + j) % g.cols = (a * g.cols + c) % g.cols := by rw [e]
              rw [Nat.mul_add_mod_of_lt hj, Nat.mul_add_mod_of_lt hc] at h2
              rw [Nat.mul_comm i, Nat.mul_comm a, Nat.mul_add_div H.cpos, Nat.mul_add_div H.cpos, Nat.div_eq_of_lt hj,
                Nat.div_eq_of_lt hc] at h1
              omega
      · rw [fput_ne _ _ hlk] at hl
        have hd := h.disj l k b' q' g' b q g hlk hl hk
        exact (h.holds l b' q' g' hl).congr (upd_ne _ _ _ hd.2.1) (upd_ne _ _ _ hd.2.2.2)
    · intro l l' b1 q1 g1 b2 q2 g2 hll hl hl'
      have get : ∀ l b' q' g', fput own k (some (b, q, { g with cell := fun a c => if a = i ∧ c = j then x else g.cell a c })) l =
          some (b', q', g') → ∃ g'', own l = some (b', q', g'') := by
        intro l b' q' g' hl
        by_cases hlk : l = k
        · subst hlk
          rw [fput_same] at hl
          simp only [Option.some.injEq, Prod.mk.injEq] at hl
          obtain ⟨rfl, rfl, rfl⟩ := hl
          exact ⟨g, hk⟩
        · rw [fput_ne _ _ hlk] at hl; exact ⟨_, hl⟩
      obtain ⟨_, a1⟩ := get _ _ _ _ hl
      obtain ⟨_, a2⟩ := get _ _ _ _ hl'
      exact h.disj _ _ _ _ _ _ _ _ hll a1 a2
    · intro a ha
      obtain ⟨l, b', q', g', hl, hab⟩ := h.live a ((hne a).1 ha)
      by_cases hlk : l = k
      · subst hlk
        rw [hk] at hl
        simp only [Option.some.injEq, Prod.mk.injEq] at hl
        obtain ⟨rfl, rfl, rfl⟩ := hl
        exact ⟨l, _, _, _, fput_same _ _ _, hab⟩
      · exact ⟨l, b', q', g', by rw [fput_ne _ _ hlk]; exact hl, hab⟩

theorem Holds.load {m : Mem τ} {b q : Nat} {g : Grid τ} (h : Holds m b q g) (i j : Nat) (hi : i < g.rows) (hj : j < g.cols) :
    m.load q (i * g.cols + j) = .ok (g.cell i j) := by
  obtain ⟨xs, e1, e2, e3⟩ := h.vals
  unfold Mem.load
  rw [e1]
  simp only
  rw [e3 i j hi hj]

/-- Grids that agree on their cells. -/
theorem HI.congr {m : Mem τ} {own : Own κ τ} (h : HI m own) (k : κ) (b q : Nat) (g g' : Grid τ) (hk : own k = some (b, q, g))
    (hr : g'.rows = g.rows) (hc : g'.cols = g.cols) (hg : ∀ i j, i < g.rows → j < g.cols → g'.cell i j = g.cell i j) :
    HI m (fput own k (some (b, q, g'))) := by
  have get : ∀ l b' q' g'', fput own k (some (b, q, g')) l = some (b', q', g'') → ∃ g3, own l = some (b', q', g3) ∧
      g''.rows = g3.rows ∧ g''.cols = g3.cols ∧ ∀ i j, i < g3.rows → j < g3.cols → g''.cell i j = g3.cell i j := by
    intro l b' q' g'' hl
    by_cases hlk : l = k
    · subst hlk
      rw [fput_same] at hl
      simp only [Option.some.injEq, Prod.mk.injEq] at hl
      obtain ⟨rfl, rfl, rfl⟩ := hl
      exact ⟨g, hk, hr, hc, hg⟩
    · rw [fput_ne _ _ hlk] at hl; exact ⟨_, hl, rfl, rfl, fun _ _ _ _ => rfl⟩
  refine ⟨?_, ?_, ?_, h.lt⟩
  · intro l b' q' g'' hl
    obtain ⟨g3, h1, h2, h3, h4⟩ := get _ _ _ _ hl
    have H := h.holds _ _ _ _ h1
    obtain ⟨xs, e1, e2, e3⟩ := H.vals
    refine ⟨h2 ▸ H.rpos, h3 ▸ H.cpos, H.ne, by rw [h2, h3]; exact H.size, by rw [h2, h3]; exact H.ptrs, xs, e1, by rw [h2, h3]; exact e2, ?_⟩
    intro i j hi hj
    rw [h2] at hi; rw [h3] at hj ⊢
    rw [h4 i j hi hj]; exact e3 i j hi hj
  · intro l l' b1 q1 g1 b2 q2 g2 hll hl hl'
    obtain ⟨_, a1, _⟩ := get _ _ _ _ hl
    obtain ⟨_, a2, _⟩ := get _ _ _ _ hl'
    exact h.disj _ _ _ _ _ _ _ _ hll a1 a2
  · intro a ha
    obtain ⟨l, b', q', g'', hl, hab⟩ := h.live a ha
    by_cases hlk : l = k
    · subst hlk
      rw [hk] at hl
      simp only [Option.some.injEq, Prod.mk.injEq] at hl
      obtain ⟨rfl, rfl, rfl⟩ := hl
      exact ⟨l, _, _, _, fput_same _ _ _, hab⟩
    · exact ⟨l, b', q', g'', by rw [fput_ne _ _ hlk]; exact hl, hab⟩

theorem fput_fput (own : Own κ τ) (k : κ) (v w) : fput (fput own k v) k w = fput own k w := by
  funext l; unfold fput; by_cases h : l = k <;> simp [h]

/-- `std::copy` from one owner's block to another's. -/
theorem HI.copy {m : Mem τ} {own : Own κ τ} (h : HI m own) (k l : κ) (hkl : k ≠ l) (b q b' q' : Nat) (g g' : Grid τ)
    (hk : own k = some (b, q, g)) (hl : own l = some (b', q', g')) (hr : g'.rows = g.rows) (hc : g'.cols = g.cols) :
    ∀ n, n ≤ g.rows * g.cols → ∃ m', copyElems (q, 0) (q', 0) n m = .ok m' ∧
      HI m' (fput own l (some (b', q', { g' with cell := fun i j => if i * g.cols + j < n then g.cell i j else g'.cell i j })))
  | 0, _ => ⟨m, rfl, by
      refine h.congr l b' q' g' _ hl rfl rfl ?_
      intro i j _ _; simp⟩
  | n + 1, hn => by
    obtain ⟨m1, e1, h1⟩ := HI.copy h k l hkl b q b' q' g g' hk hl hr hc n (by omega)
    have hcp := (h.holds k b q g hk).cpos
    have hni : n / g.cols < g.rows := Nat.div_lt_of_lt_mul (by rw [Nat.mul_comm]; omega)
    have hnj : n % g.cols < g.cols := Nat.mod_lt _ hcp
    have hdm : n / g.cols * g.cols + n % g.cols = n := by rw [Nat.mul_comm]; exact Nat.div_add_mod n g.cols
    have hk1 : fput own l (some (b', q', { g' with cell := fun i j => if i * g.cols + j < n then g.cell i j else g'.cell i j })) k =
        some (b, q, g) := by rw [fput_ne _ _ hkl]; exact hk
    have hload := (h1.holds k b q g hk1).load (n / g.cols) (n % g.cols) hni hnj
    rw [hdm] at hload
    obtain ⟨m2, e2, h2⟩ := h1.store l b' q' _ (fput_same _ _ _) (n / g.cols) (n % g.cols) (by dsimp only; rw [hr]; exact hni)
      (by dsimp only; rw [hc]; exact hnj) (g.cell (n / g.cols) (n % g.cols))
    dsimp only at e2 h2
    rw [hc, hdm] at e2
    refine ⟨m2, ?_, ?_⟩
    · unfold copyElems
      rw [e1, Out.ok_bind]
      dsimp only
      rw [Nat.zero_add, hload, Out.ok_bind]
      exact e2
    · rw [fput_fput] at h2
      have := h2.congr l b' q' _ { g' with cell := fun i j => if i * g.cols + j < n + 1 then g.cell i j else g'.cell i j } (fput_same _ _ _) rfl rfl
        (by
          intro i j hi hj
          dsimp only at hi hj ⊢
          rw [hr] at hi; rw [hc] at hj
          by_cases hij : i = n / g.cols ∧ j = n % g.cols
          · rw [if_pos hij, hij.1, hij.2, if_pos (by omega)]
          · rw [if_neg hij]
            have : i * g.cols + j ≠ n := by
              intro e
              apply hij
              rw [← e, Nat.mul_add_mod_of_lt hj, Nat.mul_comm, Nat.mul_add_div hcp, Nat.div_eq_of_lt hj]
              exact ⟨by omega, rfl⟩
            by_cases hlt : i * g.cols + j < n
            · rw [if_pos hlt, if_pos (by omega)]
            · rw [if_neg hlt, if_neg (by omega)])
      rw [fput_fput] at this
      exact this

/-- The destructor. -/
theorem HI.destroy {m : Mem τ} {own : Own κ τ} (h : HI m own) (k : κ) (b q : Nat) (g : Grid τ) (hk : own k = some (b, q, g)) (r c : Nat) :
    ∃ m', destroy m ⟨some b, r, c⟩ = .ok m' ∧ HI m' (fput own k none) := by
  have H := h.holds k b q g hk
  have e := H.addr 0 0 H.rpos
  obtain ⟨xs, e1, e2, e3⟩ := H.vals
  refine ⟨{ m with heap := upd (upd m.heap q none) b none }, ?_, ?_⟩
  · unfold Arr2.destroy
    dsimp only
    rw [e, Out.ok_bind]
    dsimp only
    rw [if_neg (by simp)]
    unfold Mem.free
    rw [e1]
    simp only [Out.ok_bind]
    rw [upd_ne _ _ _ H.ne, H.ptrs]
  · have hh : ∀ a, upd (upd m.heap q none) b none a = if a = b ∨ a = q then none else m.heap a := by
      intro a; unfold upd; by_cases h1 : a = b <;> by_cases h2 : a = q <;> simp [h1, h2]
    have hl0 : ∀ a, upd (upd m.heap q none) b none a ≠ none → m.heap a ≠ none ∧ a ≠ b ∧ a ≠ q := by
      intro a ha
      rw [hh] at ha
      by_cases h1 : a = b ∨ a = q
      · rw [if_pos h1] at ha; exact absurd rfl ha
      · rw [if_neg h1] at ha
        exact ⟨ha, fun e => h1 (.inl e), fun e => h1 (.inr e)⟩
    have get : ∀ l b' q' g', fput own k none l = some (b', q', g') → l ≠ k ∧ own l = some (b', q', g') := by
      intro l b' q' g' hl
      by_cases hlk : l = k
      · subst hlk; rw [fput_same] at hl; cases hl
      · rw [fput_ne _ _ hlk] at hl; exact ⟨hlk, hl⟩
    refine ⟨?_, ?_, ?_, fun a ha => h.lt a (hl0 a ha).1⟩
    · intro l b' q' g' hl
      obtain ⟨hlk, hl⟩ := get _ _ _ _ hl
      have hd := h.disj l k b' q' g' b q g hlk hl hk
      refine (h.holds l b' q' g' hl).congr ?_ ?_
      · show upd (upd m.heap q none) b none b' = _
        rw [hh, if_neg (by rintro (h | h); exacts [hd.1 h, hd.2.1 h])]
      · show upd (upd m.heap q none) b none q' = _
        rw [hh, if_neg (by rintro (h | h); exacts [hd.2.2.1 h, hd.2.2.2 h])]
    · intro l l' b1 q1 g1 b2 q2 g2 hll hl hl'
      exact h.disj _ _ _ _ _ _ _ _ hll (get _ _ _ _ hl).2 (get _ _ _ _ hl').2
    · intro a ha
      obtain ⟨h1, h2, h3⟩ := hl0 a ha
      obtain ⟨l, b', q', g', hl, hab⟩ := h.live a h1
      refine ⟨l, b', q', g', ?_, hab⟩
      rw [fput_ne]
      · exact hl
      · rintro rfl
        rw [hk] at hl
        simp only [Option.some.injEq, Prod.mk.injEq] at hl
        obtain ⟨rfl, rfl, rfl⟩ := hl
        rcases hab with rfl | rfl
        · exact h2 rfl
        · exact h3 rfl

/-- The copy constructor: the new pair of blocks belongs to `k`. -/
theorem HI.copyCtor {m : Mem τ} {own : Own κ τ} (h : HI m own) (k l : κ) (hk : own k = none) (b q : Nat) (g : Grid τ)
    (hl : own l = some (b, q, g)) (dv : τ) :
    ∃ p m', copyCtor m ⟨some b, g.rows, g.cols⟩ dv true = .ok (⟨some p, g.rows, g.cols⟩, m') ∧ HI m' (fput own k (some (p, p + 1, g))) := by
  have H := h.holds l b q g hl
  have hlk : l ≠ k := by rintro rfl; rw [hk] at hl; cases hl
  obtain ⟨p, m1, e1, h1⟩ := h.create k hk g.rows g.cols dv H.rpos H.cpos H.size
  have hl1 : fput own k (some (p, p + 1, (⟨g.rows, g.cols, fun _ _ => dv⟩ : Grid τ))) l = some (b, q, g) := by
    rw [fput_ne _ _ hlk]; exact hl
  have H1 := h1.holds l b q g hl1
  have H2 := h1.holds k p (p + 1) _ (fput_same _ _ _)
  obtain ⟨m2, e2, h2⟩ := h1.copy l k hlk b q p (p + 1) g _ hl1 (fput_same _ _ _) rfl rfl (g.rows * g.cols) le_rfl
  refine ⟨p, m2, ?_, ?_⟩
  · have hend : (g.rows - 1) * g.cols + g.cols - 0 = g.rows * g.cols := by
      have : g.rows = g.rows - 1 + 1 := by have := H.rpos; omega
      conv_rhs => rw [this, Nat.add_mul, Nat.one_mul]
      rfl
    unfold Arr2.copyCtor
    dsimp only
    rw [e1, Out.ok_bind]
    dsimp only
    rw [H1.addr 0 0 H.rpos, Out.ok_bind, H1.addr (g.rows - 1) g.cols (by have := H.rpos; omega), Out.ok_bind, H2.addr 0 0 H.rpos, Out.ok_bind]
    dsimp only
    rw [if_neg (by simp), Nat.zero_mul, Nat.add_zero, hend, e2]
    rfl
  · rw [fput_fput] at h2
    have := h2.congr k p (p + 1) _ g (fput_same _ _ _) rfl rfl (by
      intro i j hi hj
      dsimp only at hi hj ⊢
      have : i * g.cols + j < g.rows * g.cols := by
        calc i * g.cols + j < i * g.cols + g.cols := by omega
          _ = (i + 1) * g.cols := by ring
          _ ≤ g.rows * g.cols := Nat.mul_le_mul_right _ hi
      rw [if_pos this])
    rw [fput_fput] at this
    exact this

end CCGL.Arr2
