import Verif.Model.AscCrash
import Verif.Spec.AscCrash
import Verif.Props.AscWrite
/-! Cut texts. -/
namespace CCGL
open Spec
variable {τ : Type}

/-- A prefix of a sequence of pieces, each followed by the same separator character: some complete pieces, then a
prefix of the next one (with its separator not written). -/
theorem prefix_pieces (d : Char) : ∀ (L : List Str) (p : Str), p <+: L.flatMap (fun l => l ++ [d]) →
    ∃ i q, i ≤ L.length ∧ q <+: L.getD i [] ∧ p = (L.take i).flatMap (fun l => l ++ [d]) ++ q := by
  intro L
  induction L with
  | nil => intro p hp; exact ⟨0, [], by simp, by simp, by simpa using hp⟩
  | cons l L ih =>
    intro p hp
    rw [List.flatMap_cons] at hp
    by_cases hlen : p.length ≤ l.length
    · refine ⟨0, p, by simp, ?_, by simp⟩
      have h1 : l <+: (l ++ [d]) ++ L.flatMap (fun l => l ++ [d]) := ⟨[d] ++ L.flatMap (fun l => l ++ [d]), by simp⟩
      simpa using List.prefix_of_prefix_length_le hp h1 hlen
    · have h1 : (l ++ [d]) <+: (l ++ [d]) ++ L.flatMap (fun l => l ++ [d]) := List.prefix_append _ _
      have h2 : (l ++ [d]) <+: p := List.prefix_of_prefix_length_le h1 hp (by simp; omega)
      obtain ⟨p', rfl⟩ := h2
      have h3 : p' <+: L.flatMap (fun l => l ++ [d]) := (List.prefix_append_right_inj _).1 hp
      obtain ⟨i, q, hi, hq, rfl⟩ := ih p' h3
      exact ⟨i + 1, q, by simpa using hi, by simpa using hq, by simp⟩

theorem words_white {a b : Str} {v : List Str} (ha : ∀ c ∈ a, White c) (hb : IsWords b v) : IsWords (a ++ b) v := by
  cases hb with
  | nil _ h => exact .nil _ (by
      intro c hc
      rcases List.mem_append.1 hc with hc | hc
      · exact ha c hc
      · exact h c hc)
  | cons pre w rest ws h1 h2 h3 h4 h5 =>
    have := IsWords.cons (a ++ pre) w rest ws (by
      intro c hc
      rcases List.mem_append.1 hc with hc | hc
      · exact ha c hc
      · exact h1 c hc) h2 h3 h4 h5
    simpa [List.append_assoc] using this

theorem words_append {a b : Str} {u v : List Str} (ha : IsWords a u) (hb : IsWords b v)
    (hl : ∀ c, a.getLast? = some c → White c) : IsWords (a ++ b) (u ++ v) := by
  induction ha with
  | nil s h => exact words_white h hb
  | cons pre w rest ws h1 h2 h3 h4 h5 ih =>
    have hr : rest ≠ [] := by
      rintro rfl
      rw [List.append_nil, List.getLast?_append_of_ne_nil _ h2] at hl
      have := List.getLast?_eq_some_getLast h2
      exact h3 _ (List.getLast_mem h2) (hl _ this)
    have ih := ih (by
      intro c hc
      apply hl
      rw [List.getLast?_append_of_ne_nil _ hr]; exact hc)
    have := IsWords.cons pre w (rest ++ b) (ws ++ v) h1 h2 h3 (by
      intro c hc
      rw [List.head?_append_of_ne_nil _ hr] at hc
      exact h4 c hc) ih
    simpa [List.append_assoc] using this

/-- A text has only one list of words. -/
theorem isWords_unique {s : Str} {a b : List Str} (ha : IsWords s a) (hb : IsWords s b) : a = b := by
  have h1 := splitSpaces_spec s a ha
  rw [splitSpaces_spec s b hb] at h1
  refine (List.append_inj_left' h1 ?_).symm
  by_cases h : s = [] ∨ (∃ c, s.getLast? = some c ∧ White c)
  · rw [if_pos h, if_pos h]; rfl
  · rw [if_neg h, if_neg h]

/-- The words of a piece of a line. -/
theorem words_pieces (ws : List Str) (q : Str) (hw : ∀ w ∈ ws, w ≠ [] ∧ ∀ c ∈ w, ¬ White c) (hq : ∀ c ∈ q, ¬ White c) :
    IsWords (ws.flatMap (fun l => l ++ [' ']) ++ q) (ws ++ if q = [] then [] else [q]) := by
  have hsp : White ' ' := by unfold White; decide
  induction ws with
  | nil =>
    by_cases h : q = []
    · subst h; exact .nil _ (by simp)
    · rw [if_neg h]
      have := IsWords.cons [] q [] [] (by simp) h hq (by simp) (.nil [] (by simp))
      simpa using this
  | cons w ws ih =>
    have ih := ih (fun v hv => hw v (by simp [hv]))
    obtain ⟨h1, h2⟩ := hw w (by simp)
    have := IsWords.cons [] w (' ' :: (ws.flatMap (fun l => l ++ [' ']) ++ q)) _ (by simp) h1 h2 (by
      intro c hc; simp at hc; subst hc; exact hsp) (words_white (a := [' ']) (by
        intro c hc; simp at hc; subst hc; exact hsp) ih)
    simpa [List.append_assoc] using this

/-! ### Crash states -/

theorem leaves_puts (ss : List Str) (t : Str) (g : Option Str) :
    Leaves (ss.map AscOp.put) (some t) g ↔ ∃ p, p <+: ss.flatten ∧ g = some (t ++ p) := by
  induction ss generalizing t with
  | nil =>
    constructor
    · intro h
      cases h with
      | stop => exact ⟨[], by simp, by simp⟩
    · rintro ⟨p, hp, rfl⟩
      have : p = [] := by simpa using hp
      subst this
      rw [List.append_nil]; exact .stop _ _
  | cons s ss ih =>
    constructor
    · intro h
      cases h with
      | stop => exact ⟨[], by simp, by simp⟩
      | part _ p _ _ h => exact ⟨p, h.trans (by simp), rfl⟩
      | next _ _ _ _ h =>
        obtain ⟨p, hp, rfl⟩ := (ih (t ++ s)).1 h
        exact ⟨s ++ p, by simpa using (List.prefix_append_right_inj s).2 hp, by simp⟩
    · rintro ⟨p, hp, rfl⟩
      by_cases hle : p.length ≤ s.length
      · exact .part s p t _ (List.prefix_of_prefix_length_le hp (by simp) hle)
      · have hs : s <+: p := List.prefix_of_prefix_length_le (by simp) hp (by omega)
        obtain ⟨p', rfl⟩ := hs
        refine .next _ _ _ _ ((ih (t ++ s)).2 ⟨p', ?_, by simp⟩)
        rw [List.flatten_cons] at hp
        exact (List.prefix_append_right_inj s).1 hp

/-- Opening for appending a file that exists changes nothing. -/
theorem leaves_open_mid (ss ss' : List Str) (t : Str) (g : Option Str) :
    Leaves (ss.map AscOp.put ++ AscOp.open :: ss'.map AscOp.put) (some t) g ↔
      Leaves ((ss ++ ss').map AscOp.put) (some t) g := by
  induction ss generalizing t with
  | nil =>
    simp only [List.map_nil, List.nil_append]
    constructor
    · intro h
      cases h with
      | stop => exact .stop _ _
      | next _ _ _ _ h => exact h
    · intro h; exact .next _ _ _ _ h
  | cons s ss ih =>
    simp only [List.map_cons, List.cons_append]
    constructor
    · intro h
      cases h with
      | stop => exact .stop _ _
      | part _ p _ _ h => exact .part _ _ _ _ h
      | next _ _ _ _ h => exact .next _ _ _ _ ((ih _).1 h)
    · intro h
      cases h with
      | stop => exact .stop _ _
      | part _ p _ _ h => exact .part _ _ _ _ h
      | next _ _ _ _ h => exact .next _ _ _ _ ((ih _).2 h)

end CCGL
