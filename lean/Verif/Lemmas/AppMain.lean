import Verif.Spec.AppMain
import Verif.Props.FmtPaths
import Verif.Props.Asc
import Mathlib.Data.List.Sort
/-!
# The settings table of `mask_rasterio`
-/
namespace CCGL
open Spec
namespace Main

/-! ## The order of the keys -/

theorem strLt_irrefl (s : Str) : strLt s s = false := by
  induction s with
  | nil => rfl
  | cons a s ih =>
    have : strLt (a :: s) (a :: s) = if a.toNat < a.toNat then true else if a.toNat < a.toNat then false else strLt s s := rfl
    rw [this, if_neg (by omega), if_neg (by omega), ih]

theorem strLt_cons (a b : Char) (s t : Str) :
    strLt (a :: s) (b :: t) = true ↔ a.toNat < b.toNat ∨ (a = b ∧ strLt s t = true) := by
  have h : strLt (a :: s) (b :: t) = if a.toNat < b.toNat then true else if b.toNat < a.toNat then false else strLt s t := rfl
  rw [h]
  by_cases h1 : a.toNat < b.toNat
  · rw [if_pos h1]; simp [h1]
  · rw [if_neg h1]
    by_cases h2 : b.toNat < a.toNat
    · rw [if_pos h2]
      constructor
      · intro h; exact absurd h (by simp)
      · rintro (h | ⟨rfl, _⟩)
        · omega
        · omega
    · rw [if_neg h2]
      have : a = b := Char.toNat_inj.1 (by omega)
      constructor
      · intro h; exact Or.inr ⟨this, h⟩
      · rintro (h | ⟨_, h⟩)
        · omega
        · exact h

theorem strLt_trans {s t u : Str} (h : strLt s t = true) (h' : strLt t u = true) : strLt s u = true := by
  induction s generalizing t u with
  | nil =>
    cases u with
    | nil => cases t with
      | nil => exact h
      | cons b t => exact absurd h' (by simp [strLt])
    | cons c u => rfl
  | cons a s ih =>
    cases t with
    | nil => exact absurd h (by simp [strLt])
    | cons b t =>
      cases u with
      | nil => exact absurd h' (by simp [strLt])
      | cons c u =>
        rw [strLt_cons] at h h' ⊢
        rcases h with h | ⟨rfl, h⟩
        · rcases h' with h' | ⟨rfl, h'⟩
          · exact Or.inl (by omega)
          · exact Or.inl h
        · rcases h' with h' | ⟨rfl, h'⟩
          · exact Or.inl h'
          · exact Or.inr ⟨rfl, ih h h'⟩

theorem strLt_total (s t : Str) (h : s ≠ t) (h' : strLt s t = false) : strLt t s = true := by
  induction s generalizing t with
  | nil => cases t with
    | nil => exact absurd rfl h
    | cons b t => exact absurd h' (by simp [strLt])
  | cons a s ih =>
    cases t with
    | nil => rfl
    | cons b t =>
      rw [Bool.eq_false_iff, Ne, strLt_cons, not_or] at h'
      rw [strLt_cons]
      by_cases hab : a = b
      · subst hab
        refine Or.inr ⟨rfl, ih t (fun e => h (by rw [e])) ?_⟩
        rw [Bool.eq_false_iff]; exact fun hh => h'.2 ⟨rfl, hh⟩
      · left
        have : a.toNat ≠ b.toNat := fun e => hab (Char.toNat_inj.1 e)
        omega

/-- A table in the order of its keys, without repetitions. -/
def Sorted (m : Args) : Prop := m.Pairwise (fun a b => strLt a.1 b.1 = true)

theorem mem_insert {m : Args} {k : Str} {v : List Str} {e : Str × List Str} (h : e ∈ m.insert k v) : e ∈ m ∨ e = (k, v) := by
  induction m with
  | nil => exact Or.inr (by simpa [Args.insert] using h)
  | cons x m ih =>
    unfold Args.insert at h
    by_cases h1 : k = x.1
    · rw [if_pos h1] at h; exact Or.inl h
    · rw [if_neg h1] at h
      by_cases h2 : strLt k x.1
      · rw [if_pos h2] at h
        rcases List.mem_cons.1 h with h | h
        · exact Or.inr h
        · exact Or.inl h
      · rw [if_neg h2] at h
        rcases List.mem_cons.1 h with h | h
        · exact Or.inl (by simp [h])
        · rcases ih h with h | h
          · exact Or.inl (List.mem_cons_of_mem _ h)
          · exact Or.inr h

theorem Sorted.insert {m : Args} (hm : Sorted m) (k : Str) (v : List Str) : Sorted (m.insert k v) := by
  induction m with
  | nil => exact List.pairwise_singleton _ _
  | cons x m ih =>
    unfold Args.insert
    unfold Sorted at hm
    rw [List.pairwise_cons] at hm
    by_cases h1 : k = x.1
    · rw [if_pos h1]; exact List.pairwise_cons.2 hm
    · rw [if_neg h1]
      by_cases h2 : strLt k x.1
      · rw [if_pos h2]
        refine List.pairwise_cons.2 ⟨?_, List.pairwise_cons.2 hm⟩
        intro e he
        rcases List.mem_cons.1 he with rfl | he
        · exact h2
        · exact strLt_trans h2 (hm.1 e he)
      · rw [if_neg h2]
        refine List.pairwise_cons.2 ⟨?_, ih hm.2⟩
        intro e he
        rcases mem_insert he with he | rfl
        · exact hm.1 e he
        · exact strLt_total _ _ h1 (by simpa using h2)

theorem get_cons (e : Str × List Str) (m : Args) (k : Str) : Args.get (e :: m) k = if e.1 = k then some e.2 else Args.get m k := by
  unfold Args.get
  by_cases h : e.1 = k
  · rw [List.find?_cons_of_pos (by simpa using h), if_pos h]; rfl
  · rw [List.find?_cons_of_neg (by simpa using h), if_neg h]

theorem get_mem {m : Args} {k : Str} {v : List Str} (h : m.get k = some v) : (k, v) ∈ m := by
  induction m with
  | nil => exact absurd h (by simp [Args.get])
  | cons e m ih =>
    rw [get_cons] at h
    by_cases he : e.1 = k
    · rw [if_pos he] at h; cases h; subst he; exact List.mem_cons_self
    · rw [if_neg he] at h; exact List.mem_cons_of_mem _ (ih h)

theorem Sorted.mem_get {m : Args} (hm : Sorted m) {k : Str} {v : List Str} (h : (k, v) ∈ m) : m.get k = some v := by
  induction m with
  | nil => simp at h
  | cons e m ih =>
    rw [get_cons]
    unfold Sorted at hm
    rw [List.pairwise_cons] at hm
    rcases List.mem_cons.1 h with h | h
    · rw [← h, if_pos rfl]
    · have := hm.1 _ h
      have hne : e.1 ≠ k := by
        intro he
        rw [he] at this
        exact absurd this (by rw [strLt_irrefl]; simp)
      rw [if_neg hne]
      exact ih hm.2 h

/-- `insert` adds the entry unless the key is present. -/
theorem Sorted.get_insert {m : Args} (hm : Sorted m) (k k' : Str) (v : List Str) :
    (m.insert k v).get k' = if k = k' then some ((m.get k).getD v) else m.get k' := by
  induction m with
  | nil =>
    unfold Args.insert
    rw [get_cons]
    by_cases h : k = k'
    · rw [if_pos h, if_pos h]; rfl
    · rw [if_neg h, if_neg h]
  | cons e m ih =>
    have hm' := hm
    unfold Sorted at hm'
    rw [List.pairwise_cons] at hm'
    unfold Args.insert
    by_cases h1 : k = e.1
    · rw [if_pos h1]
      by_cases h : k = k'
      · rw [if_pos h, get_cons, get_cons, if_pos h1.symm, if_pos (by rw [← h1, h])]; rfl
      · rw [if_neg h]
    · rw [if_neg h1]
      by_cases h2 : strLt k e.1
      · rw [if_pos h2, get_cons]
        by_cases h : k = k'
        · rw [if_pos h, if_pos h]
          have hn : Args.get (e :: m) k = none := by
            cases hg : Args.get (e :: m) k with
            | none => rfl
            | some x =>
              exfalso
              have hk := get_mem hg
              rcases List.mem_cons.1 hk with hk | hk
              · exact h1 (by rw [← hk])
              · have := strLt_trans h2 (hm'.1 _ hk)
                rw [strLt_irrefl] at this
                exact absurd this (by simp)
          rw [hn]; rfl
        · rw [if_neg h, if_neg h]
      · rw [if_neg h2, get_cons, ih hm'.2, get_cons]
        by_cases h : k = k'
        · rw [if_pos h, if_pos h, if_neg (fun hh => h1 (by rw [h, hh])), if_neg (fun hh => h1 hh.symm)]
        · rw [if_neg h, if_neg h, get_cons]

/-! ## The known settings -/

/-- The names of the settings in their order. -/
def known : List Str := ["DEFAULT".toList, "DEFAULTVALUE".toList, "IN".toList, "INCLUDE_NODATA".toList, "INPUT".toList, "MASK".toList,
  "MODE".toList, "MONGO".toList, "MONGODB".toList, "NODATA".toList, "NODATAVALUE".toList, "OUT".toList, "OUTDATATYPE".toList,
  "OUTPUT".toList, "RECLASS".toList, "THREAD".toList]

theorem known_sorted : known.Pairwise (fun a b => strLt a b = true) := by decide +kernel

theorem tags_cons (w : World) (c : Cfg) (e : Str × List Str) (m : Args) :
    tags w c (e :: m) = match tag w c e.1 e.2 with
      | .ok (.go c') => tags w c' m
      | .ok (.exit n) => .ok (.exit n)
      | .ub => .ub
      | .exn => .exn := rfl

theorem tag_unknown (w : World) (c : Cfg) (k : Str) (v : List Str) (h : k ∉ known) : tag w c k v = .ok (.go c) := by
  unfold known at h
  simp only [List.mem_cons, List.not_mem_nil, or_false, not_or] at h
  obtain ⟨h1, h2, h3, h4, h5, h6, h7, h8, h9, h10, h11, h12, h13, h14, h15, h16⟩ := h
  unfold tag
  rw [if_neg h7, if_neg (not_or.2 ⟨h3, h5⟩), if_neg h6, if_neg (not_or.2 ⟨h12, h14⟩), if_neg h13, if_neg (not_or.2 ⟨h1, h2⟩),
    if_neg (not_or.2 ⟨h10, h11⟩), if_neg h15, if_neg (not_or.2 ⟨h8, h9⟩), if_neg h16, if_neg h4]

theorem tags_filter (w : World) (m : Args) (c : Cfg) : tags w c m = tags w c (m.filter (fun e => decide (e.1 ∈ known))) := by
  induction m generalizing c with
  | nil => rfl
  | cons e m ih =>
    by_cases he : e.1 ∈ known
    · rw [List.filter_cons_of_pos (by simpa using he)]
      unfold tags
      cases tag w c e.1 e.2 with
      | ok r => cases r with
        | go c' => exact ih c'
        | exit n => rfl
      | ub => rfl
      | exn => rfl
    · rw [List.filter_cons_of_neg (by simpa using he), ← ih]
      conv_lhs => unfold tags
      rw [tag_unknown w c _ _ he]

/-- The table reduced to the known settings. -/
def pick (m : Args) (ks : List Str) : Args := ks.filterMap (fun k => (m.get k).map (fun v => (k, v)))

theorem mem_pick {m : Args} {ks : List Str} {e : Str × List Str} : e ∈ pick m ks ↔ e.1 ∈ ks ∧ m.get e.1 = some e.2 := by
  unfold pick
  rw [List.mem_filterMap]
  constructor
  · rintro ⟨k, hk, h⟩
    cases hg : m.get k with
    | none => rw [hg] at h; exact absurd h (by simp)
    | some v => rw [hg] at h; cases h; exact ⟨hk, hg⟩
  · rintro ⟨h1, h2⟩
    exact ⟨e.1, h1, by rw [h2]; rfl⟩

theorem pick_sorted (m : Args) (ks : List Str) (h : ks.Pairwise (fun a b => strLt a b = true)) : Sorted (pick m ks) := by
  induction ks with
  | nil => exact List.Pairwise.nil
  | cons k ks ih =>
    rw [List.pairwise_cons] at h
    unfold pick
    cases hg : m.get k with
    | none => rw [List.filterMap_cons_none (by rw [hg]; rfl)]; exact ih h.2
    | some v =>
      rw [List.filterMap_cons_some (b := (k, v)) (by rw [hg]; rfl)]
      refine List.pairwise_cons.2 ⟨?_, ih h.2⟩
      intro e he
      exact h.1 e.1 (mem_pick.1 he).1

theorem sorted_ext {m m' : Args} (h : Sorted m) (h' : Sorted m') (hm : ∀ e, e ∈ m ↔ e ∈ m') : m = m' := by
  have nd : ∀ {m : Args}, Sorted m → m.Nodup := by
    intro m hm
    refine List.Pairwise.imp ?_ hm
    intro a b hab e
    rw [e, strLt_irrefl] at hab
    exact absurd hab (by simp)
  have hp := (List.perm_ext_iff_of_nodup (nd h) (nd h')).2 hm
  exact List.Perm.eq_of_pairwise (fun a b _ _ h1 h2 => by
    have := strLt_trans h1 h2
    rw [strLt_irrefl] at this
    exact absurd this (by simp)) h h' hp

theorem filter_known {m : Args} (hm : Sorted m) : m.filter (fun e => decide (e.1 ∈ known)) = pick m known := by
  apply sorted_ext (List.Pairwise.sublist List.filter_sublist hm) (pick_sorted m known known_sorted)
  intro e
  rw [List.mem_filter, mem_pick]
  constructor
  · rintro ⟨h1, h2⟩; exact ⟨by simpa using h2, hm.mem_get h1⟩
  · rintro ⟨h1, h2⟩; exact ⟨get_mem h2, by simpa using h1⟩

/-- One setting if it is given. -/
def optTag (w : World) (k : Str) (o : Option (List Str)) (c : Cfg) : Out (Res Cfg) :=
  match o with
  | none => .ok (.go c)
  | some v => tag w c k v

theorem tags_pick (w : World) (m : Args) (k : Str) (ks : List Str) (c : Cfg) {c' : Cfg} :
    tags w c (pick m (k :: ks)) = .ok (.go c') ↔ ∃ c1, optTag w k (m.get k) c = .ok (.go c1) ∧ tags w c1 (pick m ks) = .ok (.go c') := by
  unfold pick
  cases hg : m.get k with
  | none =>
    rw [List.filterMap_cons_none (by rw [hg]; rfl)]
    constructor
    · intro h; exact ⟨c, rfl, h⟩
    · rintro ⟨c1, h1, h2⟩; cases h1; exact h2
  | some v =>
    rw [List.filterMap_cons_some (b := (k, v)) (by rw [hg]; rfl)]
    rw [tags_cons]
    unfold optTag
    dsimp only
    cases tag w c k v with
    | ok r => cases r with
      | go c1 =>
        constructor
        · intro h; exact ⟨c1, rfl, h⟩
        · rintro ⟨c2, h1, h2⟩; cases h1; exact h2
      | exit n =>
        constructor
        · intro h; cases h
        · rintro ⟨c2, h1, h2⟩; cases h1
    | ub =>
      constructor
      · intro h; cases h
      · rintro ⟨c2, h1, h2⟩; cases h1
    | exn =>
      constructor
      · intro h; cases h
      · rintro ⟨c2, h1, h2⟩; cases h1

end Main
end CCGL
