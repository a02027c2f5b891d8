import Verif.Spec.SubObj
import Verif.Lemmas.Subset
/-! The heap of `SubsetPositions` objects: ownership, and the effect of placing, storing and releasing blocks. -/
namespace CCGL
namespace SubObj

theorem upd_same {α β : Type} [DecidableEq α] (f : α → β) (a : α) (b : β) : upd f a b a = b := by simp [upd]
theorem upd_ne {α β : Type} [DecidableEq α] (f : α → β) {a x : α} (b : β) (h : x ≠ a) : upd f a b x = f x := by simp [upd, h]

/-- The position arrays. -/
def Field.IsPos : Field → Prop
  | .lpos => True
  | .lidx => True
  | .glob => True
  | _ => False

/-- Object `i` owns the block at `a` through member `f`. -/
def Owns (w : World) (i : Nat) (f : Field) (a : Nat) : Prop :=
  ∃ o, w.objs i = some o ∧ o.ptr f = some a ∧ (f.IsPos → o.alloc = true)

/-- The block behind a member. -/
def cont (w : World) (i : Nat) (f : Field) : Option Block := (w.objs i).bind (fun o => (o.ptr f).bind w.heap)

structure Mem (w : World) : Prop where
  lt : ∀ a b, w.heap a = some b → a < w.next
  live : ∀ i o f a, w.objs i = some o → o.ptr f = some a → ∃ b, w.heap a = some b
  held : ∀ i o f a, w.objs i = some o → o.ptr f = some a → ∃ k, Owns w k f a
  uniq : ∀ i f j g a, Owns w i f a → Owns w j g a → i = j ∧ f = g
  noleak : ∀ a b, w.heap a = some b → ∃ i f, Owns w i f a
  cnt : ∀ i o, w.objs i = some o → i < w.cnt

theorem Mem.start : Mem World.start := by
  constructor <;> intros <;> simp_all [World.start, Owns]

theorem Mem.ptr_lt {w : World} (h : Mem w) {i o f a} (ho : w.objs i = some o) (ha : o.ptr f = some a) : a < w.next := by
  obtain ⟨b, hb⟩ := h.live i o f a ho ha
  exact h.lt a b hb

theorem cont_some {w : World} {i o f a} (ho : w.objs i = some o) (ha : o.ptr f = some a) : cont w i f = w.heap a := by
  simp [cont, ho, ha]

theorem cont_none {w : World} {i o f} (ho : w.objs i = some o) (ha : o.ptr f = none) : cont w i f = none := by
  simp [cont, ho, ha]

theorem Mem.ptr_of_cont {w : World} {i o f b} (ho : w.objs i = some o) (hc : cont w i f = some b) :
    ∃ a, o.ptr f = some a ∧ w.heap a = some b := by
  cases ha : o.ptr f with
  | none => rw [cont_none ho ha] at hc; cases hc
  | some a => rw [cont_some ho ha] at hc; exact ⟨a, rfl, hc⟩

theorem Mem.ptr_none {w : World} (h : Mem w) {i o f} (ho : w.objs i = some o) (hc : cont w i f = none) : o.ptr f = none := by
  cases ha : o.ptr f with
  | none => rfl
  | some a =>
    obtain ⟨b, hb⟩ := h.live i o f a ho ha
    rw [cont_some ho ha, hb] at hc; cases hc

theorem get_ok {w : World} {i o} (ho : w.objs i = some o) : w.get i = .ok o := by simp [World.get, ho]

theorem load_of_cont {w : World} {i o f b} (ho : w.objs i = some o) (hc : cont w i f = some b) : w.load (o.ptr f) = .ok b := by
  obtain ⟨a, ha, hb⟩ := Mem.ptr_of_cont ho hc
  simp [World.load, ha, hb]

theorem ints_of_cont {w : World} {i o f l} (ho : w.objs i = some o) (hc : cont w i f = some (.ints l)) :
    w.ints (o.ptr f) = .ok l := by
  rw [World.ints, load_of_cont ho hc]; rfl

theorem pairs_of_cont {w : World} {i o f l} (ho : w.objs i = some o) (hc : cont w i f = some (.pairs l)) :
    w.pairs (o.ptr f) = .ok l := by
  rw [World.pairs, load_of_cont ho hc]; rfl

theorem dbls_of_cont {w : World} {i o f l} (ho : w.objs i = some o) (hc : cont w i f = some (.dbls l)) :
    w.dbls (o.ptr f) = .ok l := by
  rw [World.dbls, load_of_cont ho hc]; rfl

theorem rows_of_cont {w : World} {i o f l} (ho : w.objs i = some o) (hc : cont w i f = some (.rows l)) :
    w.rows (o.ptr f) = .ok l := by
  rw [World.rows, load_of_cont ho hc]; rfl

/-! #### create -/

theorem create_objs (w : World) (o : Obj) (k : Nat) : (create w o).objs k = if k = w.cnt then some o else w.objs k := rfl

/-- A new object: either without arrays, or with borrowed position arrays only. -/
theorem Mem.create {w : World} (h : Mem w) (o : Obj)
    (hp : ∀ f a, o.ptr f = some a → f.IsPos ∧ o.alloc = false ∧ ∃ k, Owns w k f a) : Mem (create w o) := by
  have hn : w.objs w.cnt = none := by
    cases e : w.objs w.cnt with
    | none => rfl
    | some o' => exact absurd (h.cnt _ _ e) (Nat.lt_irrefl _)
  have hold : ∀ i o', w.objs i = some o' → (SubObj.create w o).objs i = some o' := by
    intro i o' hi
    rw [create_objs, if_neg (Nat.ne_of_lt (h.cnt i o' hi)), hi]
  have hO : ∀ i f a, Owns (SubObj.create w o) i f a ↔ Owns w i f a := by
    intro i f a
    constructor
    · rintro ⟨o', h1, h2, h3⟩
      rw [create_objs] at h1
      by_cases hi : i = w.cnt
      · rw [if_pos hi] at h1
        cases h1
        obtain ⟨p1, p2, _⟩ := hp f a h2
        rw [h3 p1] at p2; cases p2
      · rw [if_neg hi] at h1
        exact ⟨o', h1, h2, h3⟩
    · rintro ⟨o', h1, h2, h3⟩
      exact ⟨o', hold i o' h1, h2, h3⟩
  constructor
  · exact h.lt
  · intro i o' f a h1 h2
    rw [create_objs] at h1
    by_cases hi : i = w.cnt
    · rw [if_pos hi] at h1
      cases h1
      obtain ⟨_, _, k, o', q1, q2, _⟩ := hp f a h2
      exact h.live k o' f a q1 q2
    · rw [if_neg hi] at h1
      exact h.live i o' f a h1 h2
  · intro i o' f a h1 h2
    rw [create_objs] at h1
    by_cases hi : i = w.cnt
    · rw [if_pos hi] at h1
      cases h1
      obtain ⟨_, _, k, q⟩ := hp f a h2
      exact ⟨k, (hO k f a).2 q⟩
    · rw [if_neg hi] at h1
      obtain ⟨k, q⟩ := h.held i o' f a h1 h2
      exact ⟨k, (hO k f a).2 q⟩
  · intro i f j g a h1 h2
    exact h.uniq i f j g a ((hO _ _ _).1 h1) ((hO _ _ _).1 h2)
  · intro a b hb
    obtain ⟨i, f, q⟩ := h.noleak a b hb
    exact ⟨i, f, (hO _ _ _).2 q⟩
  · intro i o' h1
    rw [create_objs] at h1
    show i < w.cnt + 1
    by_cases hi : i = w.cnt
    · omega
    · rw [if_neg hi] at h1
      have := h.cnt i o' h1
      omega

theorem create_cont {w : World} (h : Mem w) (o : Obj) {i : Nat} (hi : (w.objs i).isSome = true) (f : Field) :
    cont (create w o) i f = cont w i f := by
  obtain ⟨o', ho⟩ := Option.isSome_iff_exists.1 hi
  have : (create w o).objs i = some o' := by
    rw [create_objs, if_neg (Nat.ne_of_lt (h.cnt i o' ho)), ho]
  unfold cont
  rw [this, ho]; rfl

/-! #### place -/

theorem place_ok {w : World} {i : Nat} {o : Obj} (ho : w.objs i = some o) (f : Field) (b : Block) :
    w.place i f b = .ok ⟨upd w.heap w.next (some b), w.next + 1,
      upd w.objs i (some { o with ptr := upd o.ptr f (some w.next) }), w.cnt⟩ := by
  simp [World.place, get_ok ho]

/-- What a call has done: object `i` has the members `o'` and in `f` the block `b`; all else is as before. -/
structure Placed (w w' : World) (i : Nat) (o' : Obj) (f : Field) (b : Block) : Prop where
  mem : Mem w'
  obj : w'.objs i = some o'
  others : ∀ k, k ≠ i → w'.objs k = w.objs k
  cnt : w'.cnt = w.cnt
  new : cont w' i f = some b
  same : ∀ k g, (k, g) ≠ (i, f) → (w.objs k).isSome = true → cont w' k g = cont w k g

theorem Mem.place {w : World} (h : Mem w) {i : Nat} {o : Obj} (ho : w.objs i = some o) {f : Field} (b : Block)
    (hf : o.ptr f = none) (hal : f.IsPos → o.alloc = true) :
    ∃ w' a, w.place i f b = .ok w' ∧ Placed w w' i { o with ptr := upd o.ptr f (some a) } f b := by
  refine ⟨_, w.next, place_ok ho f b, ?_⟩
  have hnext : w.heap w.next = none := by
    cases e : w.heap w.next with
    | none => rfl
    | some b' => exact absurd (h.lt _ _ e) (Nat.lt_irrefl _)
  generalize hw : (⟨upd w.heap w.next (some b), w.next + 1,
    upd w.objs i (some { o with ptr := upd o.ptr f (some w.next) }), w.cnt⟩ : World) = w'
  have hheap : w'.heap = upd w.heap w.next (some b) := by rw [← hw]
  have hobjs : w'.objs = upd w.objs i (some { o with ptr := upd o.ptr f (some w.next) }) := by rw [← hw]
  have hnx : w'.next = w.next + 1 := by rw [← hw]
  have hcnt : w'.cnt = w.cnt := by rw [← hw]
  have hobj : w'.objs i = some { o with ptr := upd o.ptr f (some w.next) } := by rw [hobjs, upd_same]
  have hoth : ∀ k, k ≠ i → w'.objs k = w.objs k := fun k hk => by rw [hobjs, upd_ne _ _ hk]
  have hhp : ∀ a, a < w.next → w'.heap a = w.heap a := fun a ha => by rw [hheap, upd_ne _ _ (Nat.ne_of_lt ha)]
  -- pointers of the new world
  have hptr : ∀ k o' g a, w'.objs k = some o' → o'.ptr g = some a →
      (k = i ∧ g = f ∧ a = w.next) ∨ ∃ o'', w.objs k = some o'' ∧ o''.ptr g = some a ∧ o''.alloc = o'.alloc := by
    intro k o' g a h1 h2
    by_cases hk : k = i
    · subst hk
      rw [hobj] at h1
      cases h1
      by_cases hg : g = f
      · subst hg
        have h3 : upd o.ptr g (some w.next) g = some a := h2
        rw [upd_same] at h3
        cases h3
        exact Or.inl ⟨rfl, rfl, rfl⟩
      · have h3 : upd o.ptr f (some w.next) g = some a := h2
        rw [upd_ne _ _ hg] at h3
        exact Or.inr ⟨o, ho, h3, rfl⟩
    · rw [hoth k hk] at h1
      exact Or.inr ⟨o', h1, h2, rfl⟩
  have hO1 : ∀ k g a, Owns w' k g a → (k = i ∧ g = f ∧ a = w.next) ∨ Owns w k g a := by
    rintro k g a ⟨o', h1, h2, h3⟩
    rcases hptr k o' g a h1 h2 with h4 | ⟨o'', h5, h6, h7⟩
    · exact Or.inl h4
    · exact Or.inr ⟨o'', h5, h6, by rw [h7]; exact h3⟩
  have hO2 : ∀ k g a, Owns w k g a → Owns w' k g a := by
    rintro k g a ⟨o', h1, h2, h3⟩
    by_cases hk : k = i
    · subst hk
      rw [ho] at h1
      cases h1
      have hg : g ≠ f := by
        intro hg; rw [hg, hf] at h2; cases h2
      exact ⟨_, hobj, by show upd o.ptr f (some w.next) g = some a; rw [upd_ne _ _ hg]; exact h2, h3⟩
    · exact ⟨o', by rw [hoth k hk]; exact h1, h2, h3⟩
  have hOi : Owns w' i f w.next := ⟨_, hobj, by show upd o.ptr f (some w.next) f = _; rw [upd_same], hal⟩
  have hOlt : ∀ k g a, Owns w k g a → a < w.next := by
    rintro k g a ⟨o', h1, h2, _⟩
    exact h.ptr_lt h1 h2
  refine ⟨⟨?_, ?_, ?_, ?_, ?_, ?_⟩, hobj, hoth, hcnt, ?_, ?_⟩
  · intro a b' hb'
    rw [hnx]
    rw [hheap] at hb'
    by_cases ha : a = w.next
    · omega
    · rw [upd_ne _ _ ha] at hb'
      have := h.lt a b' hb'
      omega
  · intro k o' g a h1 h2
    rcases hptr k o' g a h1 h2 with ⟨_, _, h3⟩ | ⟨o'', h5, h6, _⟩
    · exact ⟨b, by rw [hheap, h3, upd_same]⟩
    · obtain ⟨b', hb'⟩ := h.live k o'' g a h5 h6
      exact ⟨b', by rw [hhp a (h.ptr_lt h5 h6)]; exact hb'⟩
  · intro k o' g a h1 h2
    rcases hptr k o' g a h1 h2 with ⟨_, h4, h3⟩ | ⟨o'', h5, h6, _⟩
    · rw [h4, h3]; exact ⟨i, hOi⟩
    · obtain ⟨k', hk'⟩ := h.held k o'' g a h5 h6
      exact ⟨k', hO2 _ _ _ hk'⟩
  · intro k g k' g' a h1 h2
    rcases hO1 _ _ _ h1 with ⟨p1, p2, p3⟩ | p <;> rcases hO1 _ _ _ h2 with ⟨q1, q2, q3⟩ | q
    · exact ⟨by rw [p1, q1], by rw [p2, q2]⟩
    · have := hOlt _ _ _ q; omega
    · have := hOlt _ _ _ p; omega
    · exact h.uniq _ _ _ _ _ p q
  · intro a b' hb'
    rw [hheap] at hb'
    by_cases ha : a = w.next
    · rw [ha]; exact ⟨i, f, hOi⟩
    · rw [upd_ne _ _ ha] at hb'
      obtain ⟨k, g, q⟩ := h.noleak a b' hb'
      exact ⟨k, g, hO2 _ _ _ q⟩
  · intro k o' h1
    rw [hcnt]
    by_cases hk : k = i
    · subst hk; exact h.cnt k o ho
    · rw [hoth k hk] at h1; exact h.cnt k o' h1
  · rw [cont_some (a := w.next) hobj (by show upd o.ptr f (some w.next) f = _; rw [upd_same]), hheap, upd_same]
  · intro k g hne hk
    obtain ⟨ok, hok⟩ := Option.isSome_iff_exists.1 hk
    by_cases hki : k = i
    · subst hki
      rw [ho] at hok
      cases hok
      have hg : g ≠ f := fun hg => hne (by rw [hg])
      cases e : o.ptr g with
      | none => rw [cont_none ho e, cont_none hobj (by show upd o.ptr f (some w.next) g = _; rw [upd_ne _ _ hg]; exact e)]
      | some a =>
        rw [cont_some ho e, cont_some hobj (a := a) (by show upd o.ptr f (some w.next) g = _; rw [upd_ne _ _ hg]; exact e), hhp a (h.ptr_lt ho e)]
    · have hok' : w'.objs k = some ok := by rw [hoth k hki]; exact hok
      cases e : ok.ptr g with
      | none => rw [cont_none hok e, cont_none hok' e]
      | some a => rw [cont_some hok e, cont_some hok' e, hhp a (h.ptr_lt hok e)]

/-! #### set -/

theorem Mem.set {w : World} (h : Mem w) {i : Nat} {o o' : Obj} (ho : w.objs i = some o) (hp : o'.ptr = o.ptr)
    (ha : o'.alloc = o.alloc) : Mem (w.set i o') ∧ ∀ k f, cont (w.set i o') k f = cont w k f := by
  have hobj : (w.set i o').objs i = some o' := upd_same _ _ _
  have hoth : ∀ k, k ≠ i → (w.set i o').objs k = w.objs k := fun k hk => upd_ne _ _ hk
  have hptr : ∀ k x, (w.set i o').objs k = some x → ∃ y, w.objs k = some y ∧ y.ptr = x.ptr ∧ y.alloc = x.alloc := by
    intro k x hx
    by_cases hk : k = i
    · subst hk; rw [hobj] at hx; cases hx; exact ⟨o, ho, hp.symm, ha.symm⟩
    · rw [hoth k hk] at hx; exact ⟨x, hx, rfl, rfl⟩
  have hptr2 : ∀ k y, w.objs k = some y → ∃ x, (w.set i o').objs k = some x ∧ y.ptr = x.ptr ∧ y.alloc = x.alloc := by
    intro k y hy
    by_cases hk : k = i
    · subst hk; rw [ho] at hy; cases hy; exact ⟨o', hobj, hp.symm, ha.symm⟩
    · exact ⟨y, by rw [hoth k hk]; exact hy, rfl, rfl⟩
  have hO : ∀ k f a, Owns (w.set i o') k f a ↔ Owns w k f a := by
    intro k f a
    constructor
    · rintro ⟨x, h1, h2, h3⟩
      obtain ⟨y, q1, q2, q3⟩ := hptr k x h1
      exact ⟨y, q1, by rw [q2]; exact h2, by rw [q3]; exact h3⟩
    · rintro ⟨y, h1, h2, h3⟩
      obtain ⟨x, q1, q2, q3⟩ := hptr2 k y h1
      exact ⟨x, q1, by rw [← q2]; exact h2, by rw [← q3]; exact h3⟩
  refine ⟨⟨h.lt, ?_, ?_, ?_, ?_, ?_⟩, ?_⟩
  · intro k x f a h1 h2
    obtain ⟨y, q1, q2, _⟩ := hptr k x h1
    exact h.live k y f a q1 (by rw [q2]; exact h2)
  · intro k x f a h1 h2
    obtain ⟨y, q1, q2, _⟩ := hptr k x h1
    obtain ⟨k', q⟩ := h.held k y f a q1 (by rw [q2]; exact h2)
    exact ⟨k', (hO _ _ _).2 q⟩
  · intro k f j g a h1 h2
    exact h.uniq _ _ _ _ _ ((hO _ _ _).1 h1) ((hO _ _ _).1 h2)
  · intro a b hb
    obtain ⟨k, f, q⟩ := h.noleak a b hb
    exact ⟨k, f, (hO _ _ _).2 q⟩
  · intro k x h1
    obtain ⟨y, q1, _⟩ := hptr k x h1
    exact h.cnt k y q1
  · intro k f
    by_cases hk : k = i
    · subst hk
      unfold cont; rw [hobj, ho]
      show (o'.ptr f).bind w.heap = (o.ptr f).bind w.heap
      rw [hp]
    · unfold cont; rw [hoth k hk]; rfl

/-! #### store -/

theorem Mem.store {w : World} (h : Mem w) {i : Nat} {o : Obj} {f : Field} {a : Nat} (b : Block) (ho : w.objs i = some o)
    (ha : o.ptr f = some a) (hf : ¬ f.IsPos) : Placed w (w.store a b) i o f b := by
  have hown : Owns w i f a := ⟨o, ho, ha, fun h' => absurd h' hf⟩
  have hO : ∀ k g c, Owns (w.store a b) k g c ↔ Owns w k g c := fun _ _ _ => Iff.rfl
  have hheap : (w.store a b).heap = upd w.heap a (some b) := rfl
  have honly : ∀ k o' g, w.objs k = some o' → o'.ptr g = some a → k = i ∧ g = f := by
    intro k o' g h1 h2
    obtain ⟨k', q⟩ := h.held k o' g a h1 h2
    obtain ⟨_, hg⟩ := h.uniq _ _ _ _ _ q hown
    subst hg
    exact ⟨(h.uniq _ _ _ _ _ ⟨o', h1, h2, fun h' => absurd h' hf⟩ hown).1, rfl⟩
  refine ⟨⟨?_, ?_, h.held, h.uniq, ?_, h.cnt⟩, ho, fun _ _ => rfl, rfl, ?_, ?_⟩
  · intro c b' hb'
    rw [hheap] at hb'
    by_cases hc : c = a
    · rw [hc]; exact h.ptr_lt ho ha
    · rw [upd_ne _ _ hc] at hb'; exact h.lt c b' hb'
  · intro k o' g c h1 h2
    by_cases hc : c = a
    · rw [hc]; exact ⟨b, by rw [hheap, upd_same]⟩
    · obtain ⟨b', hb'⟩ := h.live k o' g c h1 h2
      exact ⟨b', by rw [hheap, upd_ne _ _ hc]; exact hb'⟩
  · intro c b' hb'
    rw [hheap] at hb'
    by_cases hc : c = a
    · rw [hc]; exact ⟨i, f, hown⟩
    · rw [upd_ne _ _ hc] at hb'
      exact h.noleak c b' hb'
  · have : cont (w.store a b) i f = (w.store a b).heap a := cont_some (w := w.store a b) ho ha
    rw [this, hheap, upd_same]
  · intro k g hne hk
    obtain ⟨ok, hok⟩ := Option.isSome_iff_exists.1 hk
    cases e : ok.ptr g with
    | none => rw [cont_none hok e, cont_none (w := w.store a b) hok e]
    | some c =>
      rw [cont_some hok e, cont_some (w := w.store a b) hok e, hheap]
      refine upd_ne _ _ ?_
      intro hc
      subst hc
      obtain ⟨h1, h2⟩ := honly k ok g hok e
      exact hne (by rw [h1, h2])

/-! #### release -/

structure Released (w w' : World) (i : Nat) (o : Obj) (f : Field) : Prop where
  mem : Mem w'
  obj : w'.objs i = some { o with ptr := upd o.ptr f none }
  others : ∀ k, k ≠ i → w'.objs k = w.objs k
  cnt : w'.cnt = w.cnt
  gone : cont w' i f = none
  same : ∀ k g, (k, g) ≠ (i, f) → (w.objs k).isSome = true → cont w' k g = cont w k g

theorem Mem.release {w : World} (h : Mem w) {i : Nat} {o : Obj} {f : Field} (ho : w.objs i = some o)
    (hal : f.IsPos → o.alloc = true) (hsz : ∀ b, cont w i f = some b → b.two = true → b.size ≠ 0)
    (hno : f.IsPos → ∀ k o' a, k ≠ i → w.objs k = some o' → o'.ptr f = some a → o.ptr f ≠ some a) :
    ∃ w', w.release i f = .ok w' ∧ Released w w' i o f := by
  cases ha : o.ptr f with
  | none =>
    have hid : upd o.ptr f none = o.ptr := by
      funext g
      by_cases hg : g = f
      · rw [hg, upd_same, ha]
      · rw [upd_ne _ _ hg]
    refine ⟨w, ?_, h, by rw [hid]; exact ho, fun _ _ => rfl, rfl, cont_none ho ha, fun _ _ _ _ => rfl⟩
    simp [World.release, get_ok ho, ha]
  | some a =>
    obtain ⟨b, hb⟩ := h.live i o f a ho ha
    have hown : Owns w i f a := ⟨o, ho, ha, hal⟩
    have honly : ∀ k o' g, w.objs k = some o' → o'.ptr g = some a → k = i ∧ g = f := by
      intro k o' g h1 h2
      obtain ⟨k', q⟩ := h.held k o' g a h1 h2
      obtain ⟨_, hg⟩ := h.uniq _ _ _ _ _ q hown
      subst hg
      refine ⟨?_, rfl⟩
      by_cases hf : g.IsPos
      · by_contra hk
        exact hno hf k o' a hk h1 h2 ha
      · exact (h.uniq _ _ _ _ _ ⟨o', h1, h2, fun h' => absurd h' hf⟩ hown).1
    refine ⟨⟨upd w.heap a none, w.next, upd w.objs i (some { o with ptr := upd o.ptr f none }), w.cnt⟩, ?_, ?_⟩
    · have hcb : cont w i f = some b := by rw [cont_some ho ha, hb]
      have h2 : (b.two && b.size == 0) = false := by
        cases e : b.two with
        | false => rfl
        | true => simpa using hsz b hcb e
      have hl : w.load (some a) = .ok b := by simp [World.load, hb]
      unfold World.release
      rw [get_ok ho, Out.ok_bind]
      simp only [ha]
      rw [hl, Out.ok_bind, h2]
      rfl
    · generalize hw : (⟨upd w.heap a none, w.next, upd w.objs i (some { o with ptr := upd o.ptr f none }), w.cnt⟩ : World) = w'
      have hheap : w'.heap = upd w.heap a none := by rw [← hw]
      have hobj : w'.objs i = some { o with ptr := upd o.ptr f none } := by rw [← hw]; exact upd_same _ _ _
      have hoth : ∀ k, k ≠ i → w'.objs k = w.objs k := fun k hk => by rw [← hw]; exact upd_ne _ _ hk
      have hnx : w'.next = w.next := by rw [← hw]
      have hcnt : w'.cnt = w.cnt := by rw [← hw]
      have hptr : ∀ k x g c, w'.objs k = some x → x.ptr g = some c →
          c ≠ a ∧ ∃ y, w.objs k = some y ∧ y.ptr g = some c ∧ y.alloc = x.alloc := by
        intro k x g c h1 h2
        by_cases hk : k = i
        · subst hk
          rw [hobj] at h1
          cases h1
          have h3 : upd o.ptr f none g = some c := h2
          by_cases hg : g = f
          · subst hg; rw [upd_same] at h3; cases h3
          · rw [upd_ne _ _ hg] at h3
            refine ⟨?_, o, ho, h3, rfl⟩
            intro hc; subst hc
            exact hg (honly k o g ho h3).2
        · rw [hoth k hk] at h1
          refine ⟨?_, x, h1, h2, rfl⟩
          intro hc; subst hc
          exact hk (honly k x g h1 h2).1
      have hptr2 : ∀ k y g c, w.objs k = some y → y.ptr g = some c → c ≠ a →
          ∃ x, w'.objs k = some x ∧ x.ptr g = some c ∧ x.alloc = y.alloc := by
        intro k y g c h1 h2 hc
        by_cases hk : k = i
        · subst hk
          rw [ho] at h1; cases h1
          have hg : g ≠ f := by
            intro hg; subst hg
            rw [ha] at h2; cases h2; exact hc rfl
          exact ⟨_, hobj, by show upd o.ptr f none g = _; rw [upd_ne _ _ hg]; exact h2, rfl⟩
        · exact ⟨y, by rw [hoth k hk]; exact h1, h2, rfl⟩
      have hO1 : ∀ k g c, Owns w' k g c → c ≠ a ∧ Owns w k g c := by
        rintro k g c ⟨x, h1, h2, h3⟩
        obtain ⟨q1, y, q2, q3, q4⟩ := hptr k x g c h1 h2
        exact ⟨q1, y, q2, q3, by rw [q4]; exact h3⟩
      have hO2 : ∀ k g c, Owns w k g c → c ≠ a → Owns w' k g c := by
        rintro k g c ⟨y, h1, h2, h3⟩ hc
        obtain ⟨x, q1, q2, q3⟩ := hptr2 k y g c h1 h2 hc
        exact ⟨x, q1, q2, by rw [q3]; exact h3⟩
      refine ⟨⟨?_, ?_, ?_, ?_, ?_, ?_⟩, hobj, hoth, hcnt, ?_, ?_⟩
      · intro c b' hb'
        rw [hheap] at hb'
        by_cases hc : c = a
        · rw [hc, upd_same] at hb'; cases hb'
        · rw [upd_ne _ _ hc] at hb'; rw [hnx]; exact h.lt c b' hb'
      · intro k x g c h1 h2
        obtain ⟨q1, y, q2, q3, _⟩ := hptr k x g c h1 h2
        obtain ⟨b', hb'⟩ := h.live k y g c q2 q3
        exact ⟨b', by rw [hheap, upd_ne _ _ q1]; exact hb'⟩
      · intro k x g c h1 h2
        obtain ⟨q1, y, q2, q3, _⟩ := hptr k x g c h1 h2
        obtain ⟨k', q⟩ := h.held k y g c q2 q3
        exact ⟨k', hO2 _ _ _ q q1⟩
      · intro k g k' g' c h1 h2
        exact h.uniq _ _ _ _ _ (hO1 _ _ _ h1).2 (hO1 _ _ _ h2).2
      · intro c b' hb'
        rw [hheap] at hb'
        by_cases hc : c = a
        · rw [hc, upd_same] at hb'; cases hb'
        · rw [upd_ne _ _ hc] at hb'
          obtain ⟨k, g, q⟩ := h.noleak c b' hb'
          exact ⟨k, g, hO2 _ _ _ q hc⟩
      · intro k x h1
        rw [hcnt]
        by_cases hk : k = i
        · subst hk; exact h.cnt k o ho
        · rw [hoth k hk] at h1; exact h.cnt k x h1
      · exact cont_none hobj (by show upd o.ptr f none f = _; rw [upd_same])
      · intro k g hne hk
        obtain ⟨ok, hok⟩ := Option.isSome_iff_exists.1 hk
        cases e : ok.ptr g with
        | none =>
          rw [cont_none hok e]
          by_cases hki : k = i
          · subst hki
            rw [ho] at hok; cases hok
            have hg : g ≠ f := fun hg => hne (by rw [hg])
            exact cont_none hobj (by show upd o.ptr f none g = _; rw [upd_ne _ _ hg]; exact e)
          · exact cont_none (by rw [hoth k hki]; exact hok) e
        | some c =>
          have hc : c ≠ a := by
            intro hc; subst hc
            obtain ⟨h1, h2⟩ := honly k ok g hok e
            exact hne (by rw [h1, h2])
          obtain ⟨x, q1, q2, _⟩ := hptr2 k ok g c hok e hc
          rw [cont_some hok e, cont_some q1 q2, hheap, upd_ne _ _ hc]

/-! #### the end of an object -/

theorem Mem.remove {w : World} (h : Mem w) {i : Nat} {o : Obj} (ho : w.objs i = some o)
    (hp : ∀ f a, o.ptr f = some a → f.IsPos ∧ o.alloc = false) :
    Mem { w with objs := upd w.objs i none } ∧
      ∀ k f, k ≠ i → cont { w with objs := upd w.objs i none } k f = cont w k f := by
  have hoth : ∀ k, k ≠ i → ({ w with objs := upd w.objs i none } : World).objs k = w.objs k := fun k hk => upd_ne _ _ hk
  have hi : ({ w with objs := upd w.objs i none } : World).objs i = none := upd_same _ _ _
  have hne : ∀ k f a, Owns w k f a → k ≠ i := by
    rintro k f a ⟨x, h1, h2, h3⟩ hk
    subst hk
    rw [ho] at h1; cases h1
    obtain ⟨p1, p2⟩ := hp f a h2
    rw [h3 p1] at p2; cases p2
  have hO1 : ∀ k f a, Owns { w with objs := upd w.objs i none } k f a → Owns w k f a := by
    rintro k f a ⟨x, h1, h2, h3⟩
    have hk : k ≠ i := by intro hk; rw [hk, hi] at h1; cases h1
    rw [hoth k hk] at h1
    exact ⟨x, h1, h2, h3⟩
  have hO2 : ∀ k f a, Owns w k f a → Owns { w with objs := upd w.objs i none } k f a := by
    rintro k f a q
    have hk := hne k f a q
    obtain ⟨x, h1, h2, h3⟩ := q
    exact ⟨x, by rw [hoth k hk]; exact h1, h2, h3⟩
  have hold : ∀ k x, ({ w with objs := upd w.objs i none } : World).objs k = some x → w.objs k = some x := by
    intro k x h1
    have hk : k ≠ i := by intro hk; rw [hk, hi] at h1; cases h1
    rw [hoth k hk] at h1; exact h1
  refine ⟨⟨h.lt, ?_, ?_, ?_, ?_, ?_⟩, ?_⟩
  · intro k x f a h1 h2
    exact h.live k x f a (hold k x h1) h2
  · intro k x f a h1 h2
    obtain ⟨k', q⟩ := h.held k x f a (hold k x h1) h2
    exact ⟨k', hO2 _ _ _ q⟩
  · intro k f j g a h1 h2
    exact h.uniq _ _ _ _ _ (hO1 _ _ _ h1) (hO1 _ _ _ h2)
  · intro a b hb
    obtain ⟨k, f, q⟩ := h.noleak a b hb
    exact ⟨k, f, hO2 _ _ _ q⟩
  · intro k x h1
    exact h.cnt k x (hold k x h1)
  · intro k f hk
    unfold cont
    rw [hoth k hk]

end SubObj
end CCGL
