import Verif.Lemmas.AscCrash
/-! Cut ASCII grids as lines of words. -/
namespace CCGL
open Spec
variable {τ : Type}

theorem contentLines_length {ls out : List Str} (h : ContentLines ls out) : out.length ≤ ls.length := by
  induction h with
  | nil => simp
  | skip l r ls out h hr hs ih => simp; omega
  | keep l r ls out h hne hr hs ih => simpa using ih

theorem ascHeaderText_lines (h : Header) :
    ascHeaderText h = ((headWords h).map (join ' ')).flatMap (fun l => l ++ nl) := by
  simp [headWords, join, ascHeaderText, List.flatMap_cons]

/-- A header cut anywhere has at most six content lines. -/
theorem header_cut (h : Header) (p : Str) (hp : p <+: ascHeaderText h) : ∃ out, TextContent p out ∧ out.length < 7 := by
  rw [ascHeaderText_lines] at hp
  obtain ⟨i, q, hi, hq, rfl⟩ := prefix_pieces '\n' _ p hp
  generalize hL : (headWords h).map (join ' ') = L at hi hq
  have hlen : L.length = 6 := by rw [← hL]; rfl
  have hch : ∀ l ∈ L, '\n' ∉ l := by
    intro l hl hn
    rw [← hL] at hl
    obtain ⟨ws, hw, rfl⟩ := List.mem_map.1 hl
    have := (headWords_good h ws hw).chars '\n' hn
    revert this; decide
  have hqch : '\n' ∉ q := by
    intro hn
    have h1 := hq.subset hn
    by_cases hlt : i < L.length
    · rw [List.getD_eq_getElem _ _ hlt] at h1
      exact hch _ (List.getElem_mem hlt) h1
    · rw [List.getD_eq_default _ _ (by omega)] at h1; simp at h1
  have hall : ∀ l ∈ L.take i ++ [q], '\n' ∉ l := by
    intro l hl
    rcases List.mem_append.1 hl with hl | hl
    · exact hch l (List.mem_of_mem_take hl)
    · simp at hl; subst hl; exact hqch
  by_cases hlt : i < 6
  · obtain ⟨out, ho⟩ : ∃ out, ContentLines (L.take i ++ [q]) out := ⟨_, contentLines_filter _⟩
    refine ⟨out, ⟨L.take i ++ [q], by simp, hall, join_lines _ _, ho⟩, ?_⟩
    have := contentLines_length ho
    simp only [List.length_append, List.length_take, List.length_singleton] at this
    omega
  · have hq0 : q = [] := by
      rw [List.getD_eq_default _ _ (by omega)] at hq; simpa using hq
    subst hq0
    obtain ⟨out, ho⟩ : ∃ out, ContentLines (L.take i) out := ⟨_, contentLines_filter _⟩
    refine ⟨out ++ [], ⟨L.take i ++ [[]], by simp, hall, join_lines _ _,
      contentLines_append ho (.skip _ _ _ _ trimmed_nil (Or.inl rfl) .nil)⟩, ?_⟩
    have := contentLines_length ho
    simp only [List.length_take] at this
    simp only [List.append_nil]
    omega

/-- The words of the last line of a cut text. -/
def lastWords (ws : List Str) (w : Str) : List Str := ws ++ if w = [] then [] else [w]

def pieces (ws : List Str) : Str := ws.flatMap (fun l => l ++ [' '])

theorem pieces_join (ws : List Str) (hne : ws ≠ []) : pieces ws = join ' ' ws ++ [' '] := by
  have := flatMap_row (fun s : Str => s) ws hne
  simpa [pieces] using this

theorem pieces_snoc (ws : List Str) (w : Str) : pieces ws ++ w = join ' ' (ws ++ [w]) := by
  induction ws with
  | nil => simp [pieces, join]
  | cons v ws ih =>
    have e : join ' ' (v :: (ws ++ [w])) = v ++ ' ' :: join ' ' (ws ++ [w]) := by
      cases ws <;> rfl
    rw [List.cons_append, e, ← ih]
    simp [pieces]

theorem lastLine_content (ws : List Str) (w : Str) (hg : lastWords ws w ≠ [] → GoodWords (lastWords ws w)) :
    ContentLines [pieces ws ++ w] (if lastWords ws w = [] then [] else [join ' ' (lastWords ws w)]) := by
  by_cases h : lastWords ws w = []
  · rw [if_pos h]
    unfold lastWords at h
    have h1 : ws = [] := by
      by_contra h0; exact h0 (List.append_eq_nil_iff.1 h).1
    have h2 : w = [] := by
      by_contra h0; have := (List.append_eq_nil_iff.1 h).2; rw [if_neg h0] at this; simp at this
    subst h1; subst h2
    exact .skip _ _ _ _ trimmed_nil (Or.inl rfl) .nil
  · rw [if_neg h]
    have hg := hg h
    have ht : IsTrimmed (pieces ws ++ w) (join ' ' (lastWords ws w)) := by
      by_cases hw : w = []
      · subst hw
        have hws : ws ≠ [] := by intro h0; subst h0; exact h rfl
        have e : lastWords ws [] = ws := by simp [lastWords]
        rw [e] at hg ⊢
        rw [List.append_nil, pieces_join ws hws]
        exact hg.trimmed [' '] (by simp [Blank])
      · have e : lastWords ws w = ws ++ [w] := by rw [lastWords, if_neg hw]
        rw [e] at hg ⊢
        rw [pieces_snoc]
        have := hg.trimmed [] (by simp)
        simpa using this
    exact .keep _ _ _ _ ht hg.headOk.2.2 hg.headOk.2.1 .nil

/-- Header lines, complete rows, and a line broken off. -/
def cutText (hs ds : List (List Str)) (ws : List Str) (w : Str) : Str :=
  (hs.map (join ' ') ++ ds.map pieces).flatMap (fun l => l ++ nl) ++ (pieces ws ++ w)

theorem cutText_words (hs ds : List (List Str)) (ws : List Str) (w : Str) (hh : ∀ ws ∈ hs, GoodWords ws)
    (hd : ∀ ws ∈ ds, GoodWords ws) (hg : lastWords ws w ≠ [] → GoodWords (lastWords ws w))
    (hc : ∀ c ∈ pieces ws ++ w, 32 ≤ c.toNat) :
    TextWords (cutText hs ds ws w) (hs ++ ds ++ if lastWords ws w = [] then [] else [lastWords ws w]) ∧
      NoVtFf (cutText hs ds ws w) := by
  have e : cutText hs ds ws w = join '\n' ((hs.map (join ' ') ++ ds.map pieces) ++ [pieces ws ++ w]) := by
    rw [← join_lines]; rfl
  have hpc : ds.map pieces = ds.map (fun ws => join ' ' ws ++ [' ']) :=
    List.map_congr_left (fun ws hw => pieces_join ws (hd ws hw).ne)
  have hchar : ∀ l ∈ (hs.map (join ' ') ++ ds.map pieces) ++ [pieces ws ++ w], ∀ c ∈ l, 32 ≤ c.toNat := by
    intro l hl c hc'
    rw [hpc] at hl
    simp only [List.mem_append, List.mem_map, List.mem_singleton] at hl
    rcases hl with (⟨ws, hw, rfl⟩ | ⟨ws, hw, rfl⟩) | rfl
    · exact (hh ws hw).chars c hc'
    · rcases List.mem_append.1 hc' with hc' | hc'
      · exact (hd ws hw).chars c hc'
      · simp at hc'; subst hc'; decide
    · exact hc c hc'
  refine ⟨⟨(hs ++ ds).map (join ' ') ++ (if lastWords ws w = [] then [] else [join ' ' (lastWords ws w)]),
    ⟨_, by simp, ?_, e, ?_⟩, ?_⟩, ?_⟩
  · intro l hl hn
    have := hchar l hl '\n' hn
    revert this; decide
  · have h1 := contentLines_words [] (by simp) hs hh
    have h2 := contentLines_words [' '] (by simp [Blank]) ds hd
    simp only [List.append_nil] at h1
    have := contentLines_append (contentLines_append h1 h2) (lastLine_content ws w hg)
    rw [hpc, List.map_append]
    exact this
  · have h1 := forall₂_words (hs ++ ds) (by
      intro ws hw
      rcases List.mem_append.1 hw with hw | hw
      · exact hh ws hw
      · exact hd ws hw)
    refine List.rel_append h1 ?_
    by_cases h : lastWords ws w = []
    · rw [if_pos h, if_pos h]; exact .nil
    · rw [if_neg h, if_neg h]; exact .cons (hg h).isWords .nil
  · intro c hc
    rw [e] at hc
    rcases mem_join_cases hc with rfl | ⟨l, hl, hc⟩
    · decide
    · have := hchar l hl c hc; omega

theorem flatten_cut {α : Type} (d : α) : ∀ (ds : List (List α)) (i j : Nat), i ≤ ds.length → ∃ k, k ≤ ds.flatten.length ∧
    (ds.take i).flatten ++ (ds.getD i []).take j = ds.flatten.take k ∧
    (j < (ds.getD i []).length → ds.flatten.getD k d = (ds.getD i []).getD j d) := by
  intro ds
  induction ds with
  | nil => intro i j _; exact ⟨0, by simp, by simp, by simp⟩
  | cons r ds ih =>
    intro i j hi
    cases i with
    | zero =>
      refine ⟨min j r.length, by simp, ?_, ?_⟩
      · simp only [List.take_zero, List.flatten_nil, List.nil_append, List.getD_cons_zero, List.flatten_cons]
        rw [List.take_append_of_le_length (by omega)]
        by_cases h : j ≤ r.length
        · rw [Nat.min_eq_left h]
        · rw [Nat.min_eq_right (by omega), List.take_of_length_le (by omega), List.take_length]
      · intro h
        simp only [List.getD_cons_zero] at h ⊢
        rw [Nat.min_eq_left h.le, List.flatten_cons, List.getD_append _ _ _ _ h]
    | succ i =>
      obtain ⟨k, h1, h2, h3⟩ := ih i j (by simpa using hi)
      refine ⟨r.length + k, by simp; simpa using h1, ?_, ?_⟩
      · simp only [List.take_succ_cons, List.flatten_cons, List.getD_cons_succ, List.append_assoc]
        rw [h2, List.take_length_add_append]
      · intro h
        simp only [List.getD_cons_succ] at h ⊢
        rw [← h3 h, List.flatten_cons, List.getD_append_right _ _ _ _ (by omega)]
        congr 1; omega

/-- Every text cut off within the rows is a `cutText`. -/
theorem rows_cut (ds : List (List Str)) (body : Str) (hb : body <+: (ds.map pieces).flatMap (fun l => l ++ nl)) :
    ∃ i j w, i ≤ ds.length ∧ j ≤ (ds.getD i []).length ∧ w <+: (ds.getD i []).getD j [] ∧
      body = ((ds.take i).map pieces).flatMap (fun l => l ++ nl) ++ (pieces ((ds.getD i []).take j) ++ w) := by
  obtain ⟨i, q, hi, hq, rfl⟩ := prefix_pieces '\n' _ body hb
  rw [List.length_map] at hi
  have e : (ds.map pieces).getD i [] = pieces (ds.getD i []) := by
    by_cases h : i < ds.length
    · rw [List.getD_eq_getElem _ _ (by simpa using h), List.getD_eq_getElem _ _ h, List.getElem_map]
    · rw [List.getD_eq_default _ _ (by simp; omega), List.getD_eq_default _ _ (by omega)]; rfl
  rw [e] at hq
  obtain ⟨j, w, hj, hw, rfl⟩ := prefix_pieces ' ' _ q hq
  refine ⟨i, j, w, hi, hj, hw, ?_⟩
  rw [← List.map_take]; rfl

end CCGL
