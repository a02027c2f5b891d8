import Verif.Spec.MongoLife
/-! Lemmas for the lifetimes of driver objects. -/
namespace CCGL
namespace MLife

/-- The world with more objects. -/
def World.add (w : World) (e : List Obj) : World := { w with heap := w.heap ++ e }

theorem add_nil (w : World) : w.add [] = w := by simp [World.add]

theorem add_add (w : World) (e f : List Obj) : (w.add e).add f = w.add (e ++ f) := by simp [World.add]

/-- What an object depends on. -/
def aboveOf (w : World) : Option Nat → List Nat
  | none => []
  | some i => i :: (match w.heap[i]? with | some o => o.above | none => [])

theorem new_eq (k : Kind) (p : Option Nat) (w : World) : new k p w = (w.heap.length, w.add [⟨k, true, aboveOf w p⟩]) := by
  cases p <;> rfl

/-- Well-formed heaps and wrapper objects. -/
structure Inv (w : World) : Prop where
  up : ∀ (i : Nat) (o : Obj), w.heap[i]? = some o → ∀ a ∈ o.above, a < i
  cl : ∀ (i : Nat) (o : Obj), w.heap[i]? = some o → o.kind = .client → o.above = []
  ab : ∀ (i : Nat) (o : Obj), w.heap[i]? = some o → (o.kind = .database ∨ o.kind = .collection ∨ o.kind = .gridfs) →
    ∀ a ∈ o.above, ∀ p, w.heap[a]? = some p → p.kind = .client
  kd : ∀ b k h, Holds w b k h → k = .client ∨ k = .database ∨ k = .collection ∨ k = .gridfs
  snd : ∀ b k i, Holds w b k (some i) → k ≠ .client → Sound w k i
  one : ∀ b b' k k' i, Holds w b k (some i) → Holds w b' k' (some i) → k ≠ .client → k' ≠ .client → b = b'

theorem usable_iff (w : World) (k : Kind) (i : Nat) : w.usable k i = true ↔ Sound w k i := by
  have hA : ∀ a, w.isAlive a = true ↔ Existing w a := by
    intro a
    unfold World.isAlive Existing
    cases w.heap[a]? <;> simp
  unfold World.usable Sound
  cases hh : w.heap[i]? with
  | none => simp
  | some o =>
    have hp : k.plain = true ↔ k = .bson ∨ k = .buffer := by cases k <;> simp [Kind.plain]
    simp only [Bool.and_eq_true, beq_iff_eq, Bool.or_eq_true, hp, List.all_eq_true, hA, Bool.not_eq_true', Option.some.injEq]
    constructor
    · rintro ⟨⟨h1, h2⟩, h3⟩
      exact ⟨o, rfl, h1, h2, by tauto⟩
    · rintro ⟨_, rfl, h1, h2, h3⟩
      exact ⟨⟨h1, h2⟩, by tauto⟩

theorem use_ok {w : World} {k : Kind} {i : Nat} (h : Sound w k i) : use k (some i) w = .ok i := by
  simp only [use, (usable_iff w k i).2 h, if_true]

theorem get_left {w : World} {e : List Obj} {i : Nat} (h : i < w.heap.length) : (w.add e).heap[i]? = w.heap[i]? := by
  simp only [World.add, List.getElem?_append_left h]

theorem get_right (w : World) (e : List Obj) (m : Nat) : (w.add e).heap[w.heap.length + m]? = e[m]? := by
  simp only [World.add]
  rw [List.getElem?_append_right (by omega)]
  congr 1; omega

theorem Existing.lt {w : World} {i : Nat} (h : Existing w i) : i < w.heap.length := by
  obtain ⟨o, h, _⟩ := h
  exact (List.getElem?_eq_some_iff.1 h).1

theorem Sound.lt {w : World} {k : Kind} {i : Nat} (h : Sound w k i) : i < w.heap.length := by
  obtain ⟨o, h, _⟩ := h
  exact (List.getElem?_eq_some_iff.1 h).1

theorem Sound.ex {w : World} {k : Kind} {i : Nat} (h : Sound w k i) : Existing w i := by
  obtain ⟨o, h, _, h2, _⟩ := h
  exact ⟨o, h, h2⟩

theorem Existing.add {w : World} {i : Nat} (h : Existing w i) (e : List Obj) : Existing (w.add e) i := by
  have hl := h.lt
  obtain ⟨o, h, h2⟩ := h
  exact ⟨o, by rw [get_left hl, h], h2⟩

theorem Sound.add {w : World} {k : Kind} {i : Nat} (h : Sound w k i) (e : List Obj) : Sound (w.add e) k i := by
  have hl := h.lt
  obtain ⟨o, h, h1, h2, h3⟩ := h
  refine ⟨o, by rw [get_left hl, h], h1, h2, ?_⟩
  rcases h3 with h3 | h3 | ⟨h3, h4, h5⟩
  · exact Or.inl h3
  · exact Or.inr (Or.inl h3)
  · exact Or.inr (Or.inr ⟨h3, h4, fun a ha => (h5 a ha).add e⟩)

/-- The objects an object depends on, when it can be used. -/
theorem Sound.aboves {w : World} {k : Kind} {i : Nat} (h : Sound w k i) (hk : k ≠ .bson) (hb : k ≠ .buffer) :
    w.ready = true ∧ w.ended = false ∧ ∀ a ∈ aboveOf w (some i), Existing w a := by
  have he := h.ex
  obtain ⟨o, h0, h1, h2, h3⟩ := h
  rcases h3 with h3 | h3 | ⟨h3, h4, h5⟩
  · exact absurd h3 hk
  · exact absurd h3 hb
  · refine ⟨h3, h4, ?_⟩
    intro a ha
    simp only [aboveOf, h0, List.mem_cons] at ha
    rcases ha with rfl | ha
    · exact he
    · exact h5 a ha

/-- A new object, at place `m` of the added ones, can be used. -/
theorem sound_new {w : World} {e : List Obj} {m : Nat} {o : Obj} (hm : e[m]? = some o) (ha : o.alive = true)
    (hp : o.kind = .bson ∨ o.kind = .buffer ∨ (w.ready = true ∧ w.ended = false ∧ ∀ a ∈ o.above, Existing (w.add e) a)) :
    Sound (w.add e) o.kind (w.heap.length + m) :=
  ⟨o, by rw [get_right, hm], rfl, ha, hp⟩

/-- Releasing an added object. -/
theorem destroy_add {w : World} {e : List Obj} {m : Nat} {o : Obj} (hm : e[m]? = some o) (ha : o.alive = true)
    (hp : o.kind = .bson ∨ o.kind = .buffer ∨ (w.ready = true ∧ w.ended = false ∧ ∀ a ∈ o.above, Existing (w.add e) a)) :
    destroy o.kind (some (w.heap.length + m)) (w.add e) = .ok (w.add (e.set m { o with alive := false })) := by
  have h1 := (usable_iff _ _ _).2 (sound_new hm ha hp)
  simp only [destroy, h1, if_true, get_right, hm]
  congr 1
  simp only [World.add]
  congr 1
  rw [List.set_append_right _ _ (by omega)]
  congr 2; omega

theorem ex_right {w : World} {e : List Obj} {m : Nat} {o : Obj} (hm : e[m]? = some o) (ha : o.alive = true) :
    Existing (w.add e) (w.heap.length + m) := ⟨o, by rw [get_right, hm], ha⟩

theorem getWrap_ok {w : World} {b : Nat} {k : Kind} {h : H} (hh : Holds w b k h) : getWrap k b w = .ok h := by
  have : w.wraps[b]? = some ⟨k, h, true⟩ := hh
  simp [getWrap, this]

theorem holds_add {w : World} {e : List Obj} {b : Nat} {k : Kind} {h : H} : Holds (w.add e) b k h ↔ Holds w b k h := Iff.rfl

/-- The conditions on added objects. -/
structure GoodExt (w : World) (e : List Obj) : Prop where
  up : ∀ (m : Nat) (o : Obj), e[m]? = some o → ∀ a ∈ o.above, a < w.heap.length + m
  cl : ∀ (m : Nat) (o : Obj), e[m]? = some o → o.kind = .client → o.above = []
  ab : ∀ (m : Nat) (o : Obj), e[m]? = some o → (o.kind = .database ∨ o.kind = .collection ∨ o.kind = .gridfs) →
    ∀ a ∈ o.above, ∃ p, w.heap[a]? = some p ∧ p.kind = .client

theorem Inv.add {w : World} (h : Inv w) {e : List Obj} (g : GoodExt w e) : Inv (w.add e) := by
  have hc : ∀ (i : Nat) (o : Obj), (w.add e).heap[i]? = some o →
      (i < w.heap.length ∧ w.heap[i]? = some o) ∨ ∃ m, i = w.heap.length + m ∧ e[m]? = some o := by
    intro i o hi
    by_cases hl : i < w.heap.length
    · rw [get_left hl] at hi; exact Or.inl ⟨hl, hi⟩
    · obtain ⟨m, rfl⟩ : ∃ m, i = w.heap.length + m := ⟨i - w.heap.length, by omega⟩
      rw [get_right] at hi; exact Or.inr ⟨m, rfl, hi⟩
  constructor
  · intro i o hi a ha
    rcases hc i o hi with ⟨_, h1⟩ | ⟨m, rfl, h1⟩
    · exact h.up i o h1 a ha
    · exact g.up m o h1 a ha
  · intro i o hi hk
    rcases hc i o hi with ⟨_, h1⟩ | ⟨m, rfl, h1⟩
    · exact h.cl i o h1 hk
    · exact g.cl m o h1 hk
  · intro i o hi hk a ha p hp
    rcases hc i o hi with ⟨hl, h1⟩ | ⟨m, rfl, h1⟩
    · have := h.up i o h1 a ha
      rw [get_left (by omega)] at hp
      exact h.ab i o h1 hk a ha p hp
    · obtain ⟨q, hq, hqk⟩ := g.ab m o h1 hk a ha
      have := (List.getElem?_eq_some_iff.1 hq).1
      rw [get_left this, hq] at hp
      cases hp; exact hqk
  · exact fun b k hh hb => h.kd b k hh hb
  · exact fun b k i hb hk => (h.snd b k i hb hk).add e
  · exact fun b b' k k' i hb hb' hk hk' => h.one b b' k k' i hb hb' hk hk'

/-- The objects that exist after objects were added. -/
theorem ex_add {w : World} {e : List Obj} {i : Nat} :
    Existing (w.add e) i ↔ Existing w i ∨ ∃ m o, i = w.heap.length + m ∧ e[m]? = some o ∧ o.alive = true := by
  constructor
  · rintro ⟨o, ho, ha⟩
    by_cases hl : i < w.heap.length
    · rw [get_left hl] at ho; exact Or.inl ⟨o, ho, ha⟩
    · obtain ⟨m, rfl⟩ : ∃ m, i = w.heap.length + m := ⟨i - w.heap.length, by omega⟩
      rw [get_right] at ho; exact Or.inr ⟨m, o, rfl, ho, ha⟩
  · rintro (h | ⟨m, o, rfl, ho, ha⟩)
    · exact h.add e
    · exact ⟨o, by rw [get_right, ho], ha⟩

end MLife
end CCGL
