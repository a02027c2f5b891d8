import Verif.Lemmas.AscCrash2
/-!
# Crash points of writing an ASCII grid (C86)
-/
namespace CCGL
open Spec
variable {τ : Type}

/-- A grid `WriteSingleAsc` is used for: at least one row and column, an `int` number of cells, one value each, a
non-negative cell size, coordinates below 1e38, values printed as numbers. -/
structure Spec.PlainGrid (pr : τ → Str) (den : τ → ℚ) (h : Header) (vals : List τ) : Prop where
  rows : 0 < h.rows
  cols : 0 < h.cols
  cells : h.rows * h.cols < 2 ^ 31
  len : (vals.length : Int) = h.rows * h.cols
  cellsize : 0 ≤ h.cellsize
  xll : |h.xll| < 10 ^ 38
  yll : |h.yll| < 10 ^ 38
  prints : ∀ v ∈ vals, Prints pr den v

theorem mapM_post {α β γ : Type} (f : α → Out β) (g : β → γ) (l : List α) :
    l.mapM (fun a => do let v ← f a; return g v) = (do let vs ← l.mapM f; return vs.map g) := by
  induction l with
  | nil => rfl
  | cons a l ih =>
    rw [List.mapM_cons, List.mapM_cons, ih]
    cases f a with
    | ok v => cases l.mapM f <;> rfl
    | ub => rfl
    | exn => rfl

/-- All outputs of the header. -/
def ascHeaderPuts (h : Header) : List Str :=
  [kNcols, [' '], intToDec h.cols, nl, kNrows, [' '], intToDec h.rows, nl, kXll, [' '], fmtG h.xll, nl,
   kYll, [' '], fmtG h.yll, nl, kCellsize, [' '], fmtG h.cellsize, nl, kNodata, [' '], fmtG h.noData, nl]

def ascRowPuts (pr : τ → Str) (vs : List τ) : List Str := vs.flatMap (fun v => [pr v, [' ']]) ++ [nl]

theorem ascRowOps_puts (pr : τ → Str) (vs : List τ) : ascRowOps pr vs = (ascRowPuts pr vs).map AscOp.put := by
  simp only [ascRowOps, ascRowPuts, List.map_append, List.map_flatMap]
  rfl

theorem ascRowPuts_text (pr : τ → Str) (vs : List τ) : (ascRowPuts pr vs).flatten = ascRowText pr vs := by
  unfold ascRowPuts ascRowText
  rw [List.flatten_append]
  congr 1
  · induction vs with
    | nil => rfl
    | cons v vs ih => simp [ih]

/-- The operations and the text belong together. -/
theorem ascOps_puts (pr : τ → Str) (h : Header) (vals : Ptr τ) (text : Str) (ht : writeAsc pr h vals = .ok text) :
    ∃ ss, ascOps pr h vals = .ok (.delete :: .open :: ((ascHeaderPuts h).map AscOp.put ++ .open :: ss.map AscOp.put)) ∧
      text = (ascHeaderPuts h ++ ss).flatten := by
  unfold writeAsc at ht
  unfold ascOps
  rw [mapM_post] at ht ⊢
  cases hm : (List.range h.rows.toNat).mapM (fun i => ascRow vals h.cols i) with
  | ok rows =>
    rw [hm] at ht
    simp only [Out.ok_bind, Out.pure_eq] at ht ⊢
    injection ht with ht
    refine ⟨(rows.map (ascRowPuts pr)).flatten ++ [nl], ?_, ?_⟩
    · congr 1
      have e : (rows.map (ascRowOps pr)).flatten = ((rows.map (ascRowPuts pr)).flatten).map AscOp.put := by
        rw [List.map_flatten, List.map_map]
        congr 1
        exact List.map_congr_left (fun vs _ => ascRowOps_puts pr vs)
      rw [e]
      simp [ascHeaderOps, ascHeaderPuts]
    · rw [← ht]
      have e : (rows.map (ascRowText pr)).flatten = ((rows.map (ascRowPuts pr)).flatten).flatten := by
        rw [List.flatten_flatten, List.map_map]
        congr 1
        exact List.map_congr_left (fun vs _ => (ascRowPuts_text pr vs).symm)
      rw [e]
      simp [ascHeaderText, ascHeaderPuts]
  | ub => rw [hm] at ht; cases ht
  | exn => rw [hm] at ht; cases ht

/-- C86, the crash points: whenever writing the grid would complete with `text`, a run stopped anywhere leaves the
old file, no file, or a beginning of `text`, and each of these does happen; a run that is not stopped leaves `text`. -/
theorem C86_states (pr : τ → Str) (h : Header) (vals : Ptr τ) (text : Str) (old : Option Str)
    (ht : writeAsc pr h vals = .ok text) : ∃ ops, ascOps pr h vals = .ok ops ∧
      ops.foldl AscOp.apply old = some text ∧
      ∀ g, Leaves ops old g ↔ g = old ∨ g = none ∨ ∃ p, p <+: text ∧ g = some p := by
  obtain ⟨ss, h1, h2⟩ := ascOps_puts pr h vals text ht
  refine ⟨_, h1, ?_, ?_⟩
  · have key : ∀ (l : List Str) (t : Str), (l.map AscOp.put).foldl AscOp.apply (some t) = some (t ++ l.flatten) := by
      intro l
      induction l with
      | nil => intro t; simp
      | cons s l ih =>
        intro t
        rw [List.map_cons, List.foldl_cons]
        show List.foldl AscOp.apply (some (t ++ s)) _ = _
        rw [ih]; simp
    rw [List.foldl_cons, List.foldl_cons, List.foldl_append]
    show List.foldl AscOp.apply (List.foldl AscOp.apply (some []) _) _ = _
    rw [key, List.foldl_cons]
    show List.foldl AscOp.apply (some _) _ = _
    rw [key, h2]; simp
  · intro g
    have hin : ∀ g, Leaves ((ascHeaderPuts h).map AscOp.put ++ .open :: ss.map AscOp.put) (some []) g ↔
        ∃ p, p <+: text ∧ g = some p := by
      intro g
      rw [leaves_open_mid, leaves_puts, ← h2]; simp
    constructor
    · intro hl
      cases hl with
      | stop => exact Or.inl rfl
      | next _ _ _ _ hl =>
        cases hl with
        | stop => exact Or.inr (Or.inl rfl)
        | next _ _ _ _ hl => exact Or.inr (Or.inr ((hin g).1 hl))
    · rintro (rfl | rfl | hp)
      · exact .stop _ _
      · exact .next _ _ _ _ (.stop _ _)
      · exact .next _ _ _ _ (.next _ _ _ _ ((hin g).2 hp))

/-- C86: a file cut off within the header (or right after it) is rejected; header and pointer are left alone. -/
theorem C86_header (cast : DVal → τ) (h : Header) (p : Str) (hp : p <+: ascHeaderText h) (hdr : AscHeader) (vals : Ptr τ) :
    readAsc cast (some p) hdr vals = .ok (false, hdr, vals) := by
  obtain ⟨out, h1, h2⟩ := header_cut h p hp
  exact C09_short cast p out h1 h2 hdr vals

/-! ### Words of a cut grid -/

/-- Words as number printers produce them, and beginnings of such words. -/
def NumWord (u : Str) : Prop := u ≠ [] ∧ (∀ c ∈ u, 43 ≤ c.toNat) ∧ ∀ c, u.head? = some c → c.toNat ≤ 57

theorem Prints.numWord {pr : τ → Str} {den : τ → ℚ} {v : τ} (h : Prints pr den v) : NumWord (pr v) :=
  ⟨h.ne, h.chars, h.head⟩

theorem NumWord.cut {u w : Str} (h : NumWord u) (hw : w ≠ []) (hp : w <+: u) : NumWord w := by
  refine ⟨hw, fun c hc => h.2.1 c (hp.subset hc), fun c hc => h.2.2 c ?_⟩
  obtain ⟨t, rfl⟩ := hp
  rw [List.head?_append_of_ne_nil _ hw]; exact hc

theorem NumWord.notWhite {u : Str} (h : NumWord u) : ∀ c ∈ u, ¬ White c := by
  intro c hc hw
  have h1 := h.2.1 c hc
  have h2 := white_lt hw
  omega

theorem numWords_good {ws : List Str} (hne : ws ≠ []) (h : ∀ w ∈ ws, NumWord w) : GoodWords ws ∧ DataLine ws := by
  refine ⟨⟨hne, fun w hw => ⟨(h w hw).1, fun c hc => by have := (h w hw).2.1 c hc; omega⟩, ?_⟩, ?_⟩
  · intro w hw hc
    have hm := List.mem_of_mem_head? hw
    have := (h w hm).2.1 '#' (List.mem_of_mem_head? hc)
    revert this; decide
  · cases ws with
    | nil => exact absurd rfl hne
    | cons w ws =>
      refine ⟨w, ws, rfl, ?_⟩
      obtain ⟨h1, _, h3⟩ := h w (by simp)
      cases w with
      | nil => exact absurd rfl h1
      | cons c w => exact not_key_of_head (c := c) rfl (h3 c rfl)

theorem rows_words (ds : List (List Str)) (h : ∀ ws ∈ ds, ∀ w ∈ ws, NumWord w) :
    IsWords ((ds.map pieces).flatMap (fun l => l ++ nl)) ds.flatten ∧
      ∀ c, ((ds.map pieces).flatMap (fun l => l ++ nl)).getLast? = some c → White c := by
  have hnl : White '\n' := by unfold White; decide
  induction ds with
  | nil => exact ⟨.nil _ (by simp), by simp⟩
  | cons ws ds ih =>
    obtain ⟨i1, i2⟩ := ih (fun v hv => h v (by simp [hv]))
    have hw : IsWords (pieces ws ++ nl) ws := by
      have h1 := words_pieces ws [] (fun w hw => ⟨(h ws (by simp) w hw).1, (h ws (by simp) w hw).notWhite⟩) (by simp)
      simp only [List.append_nil, if_true] at h1
      have h2 := words_append h1 (IsWords.nil nl (by intro c hc; simp [nl] at hc; subst hc; exact hnl)) (by
        intro c hc
        by_cases h0 : ws = []
        · subst h0; simp at hc
        · have := pieces_join ws h0
          unfold pieces at this
          rw [this] at hc
          simp at hc
          subst hc
          unfold White; decide)
      simpa [pieces] using h2
    rw [List.map_cons, List.flatMap_cons, List.flatten_cons]
    have hl : ∀ c, (pieces ws ++ nl).getLast? = some c → White c := by
      intro c hc
      simp [nl] at hc
      subst hc; exact hnl
    refine ⟨words_append hw i1 hl, ?_⟩
    intro c hc
    by_cases h0 : (ds.map pieces).flatMap (fun l => l ++ nl) = []
    · rw [h0, List.append_nil] at hc; exact hl c hc
    · rw [List.getLast?_append_of_ne_nil _ h0] at hc; exact i2 c hc

theorem lastWords_flatten (ws : List Str) (w : Str) :
    (if lastWords ws w = [] then [] else [lastWords ws w]).flatten = lastWords ws w := by
  by_cases h : lastWords ws w = []
  · rw [if_pos h, h]; rfl
  · rw [if_neg h]; simp

end CCGL
