import Verif.Lemmas.Asc
/-! The text written by the ASCII grid writer, as lines of words. -/
namespace CCGL
open Spec
variable {τ : Type}

/-- Words without characters below `!` that do not start a comment. -/
structure GoodWords (ws : List Str) : Prop where
  ne : ws ≠ []
  word : ∀ w ∈ ws, w ≠ [] ∧ ∀ c ∈ w, 33 ≤ c.toNat
  head : ∀ w, ws.head? = some w → w.head? ≠ some '#'

theorem white_lt {c : Char} (h : White c) : c.toNat < 33 := by unfold White at h; omega

theorem blank_lt {c : Char} (h : Blank c) : c.toNat < 33 := by
  unfold Blank at h
  simp at h
  rcases h with rfl | rfl | rfl | rfl <;> decide

theorem join_head (d : Char) (w : Str) (ws : List Str) (hw : w ≠ []) : (join d (w :: ws)).head? = w.head? := by
  cases w with
  | nil => exact absurd rfl hw
  | cons c w => cases ws <;> simp [join]

theorem GoodWords.isWords {ws : List Str} (h : GoodWords ws) : IsWords (join ' ' ws) ws :=
  words_join ws (fun w hw => ⟨(h.word w hw).1, fun c hc hwh => by
    have := (h.word w hw).2 c hc
    have := white_lt hwh
    omega⟩)

theorem GoodWords.headOk {ws : List Str} (h : GoodWords ws) :
    (∀ c, (join ' ' ws).head? = some c → ¬ Blank c) ∧ (join ' ' ws).head? ≠ some '#' ∧ join ' ' ws ≠ [] := by
  cases ws with
  | nil => exact absurd rfl h.ne
  | cons w ws =>
    obtain ⟨hne, hc⟩ := h.word w (by simp)
    rw [join_head ' ' w ws hne]
    refine ⟨?_, h.head w rfl, ?_⟩
    · intro c hh hb
      have := hc c (List.mem_of_mem_head? hh)
      have := blank_lt hb
      omega
    · intro h0
      have := join_head ' ' w ws hne
      rw [h0] at this
      cases w with
      | nil => exact hne rfl
      | cons a w => simp at this

theorem GoodWords.lastOk {ws : List Str} (h : GoodWords ws) (c : Char) (hc : (join ' ' ws).getLast? = some c) : ¬ Blank c := by
  obtain ⟨w, hw, hl⟩ := join_getLast ' ' ws (fun w hw => (h.word w hw).1) c hc
  intro hb
  have := (h.word w hw).2 c (List.mem_of_getLast? hl)
  have := blank_lt hb
  omega

theorem GoodWords.trimmed {ws : List Str} (h : GoodWords ws) (suf : Str) (hs : ∀ c ∈ suf, Blank c) :
    IsTrimmed (join ' ' ws ++ suf) (join ' ' ws) :=
  ⟨[], suf, by simp, by simp, hs, h.headOk.1, h.lastOk⟩

theorem mem_join_cases {d : Char} {ws : List Str} {c : Char} (h : c ∈ join d ws) : c = d ∨ ∃ w ∈ ws, c ∈ w := by
  induction ws with
  | nil => simp [join] at h
  | cons w ws ih =>
    cases ws with
    | nil => right; exact ⟨w, by simp, by simpa [join] using h⟩
    | cons v vs =>
      have e : join d (w :: v :: vs) = w ++ d :: join d (v :: vs) := rfl
      rw [e] at h
      rcases List.mem_append.1 h with h | h
      · right; exact ⟨w, by simp, h⟩
      · rcases List.mem_cons.1 h with h | h
        · left; exact h
        · rcases ih h with h | ⟨u, hu, hc⟩
          · left; exact h
          · right; exact ⟨u, by simp [hu], hc⟩

theorem GoodWords.chars {ws : List Str} (h : GoodWords ws) (c : Char) (hc : c ∈ join ' ' ws) : 32 ≤ c.toNat := by
  rcases mem_join_cases hc with rfl | ⟨w, hw, hc⟩
  · decide
  · have := (h.word w hw).2 c hc; omega

theorem contentLines_append {a b oa ob : List Str} (ha : ContentLines a oa) (hb : ContentLines b ob) :
    ContentLines (a ++ b) (oa ++ ob) := by
  induction ha with
  | nil => exact hb
  | skip l r ls out h hr hs ih => exact .skip _ _ _ _ h hr ih
  | keep l r ls out h hne hr hs ih => exact .keep _ _ _ _ h hne hr ih

theorem contentLines_words (suf : Str) (hs : ∀ c ∈ suf, Blank c) (wss : List (List Str)) (h : ∀ ws ∈ wss, GoodWords ws) :
    ContentLines (wss.map (fun ws => join ' ' ws ++ suf)) (wss.map (join ' ')) := by
  induction wss with
  | nil => exact .nil
  | cons ws wss ih =>
    have hg := h ws (by simp)
    exact .keep _ _ _ _ (hg.trimmed suf hs) hg.headOk.2.2 hg.headOk.2.1 (ih (fun w hw => h w (by simp [hw])))

theorem trimmed_nil : IsTrimmed [] [] := ⟨[], [], rfl, by simp, by simp, by simp, by simp⟩

/-- Texts made of lines. -/
theorem join_lines (ls : List Str) (t : Str) : (ls.flatMap (fun l => l ++ nl)) ++ t = join '\n' (ls ++ [t]) := by
  induction ls with
  | nil => rfl
  | cons l ls ih =>
    have e : join '\n' (l :: (ls ++ [t])) = l ++ '\n' :: join '\n' (ls ++ [t]) := by
      cases ls <;> rfl
    rw [List.cons_append, e, ← ih, List.flatMap_cons]
    simp [nl]

theorem forall₂_words (wss : List (List Str)) (h : ∀ ws ∈ wss, GoodWords ws) :
    List.Forall₂ IsWords (wss.map (join ' ')) wss := by
  induction wss with
  | nil => exact .nil
  | cons ws wss ih => exact .cons (h ws (by simp)).isWords (ih (fun w hw => h w (by simp [hw])))

/-- Header lines, row lines ending with a blank, one empty line. -/
def gridText (hs ds : List (List Str)) : Str :=
  (hs.map (join ' ') ++ ds.map (fun ws => join ' ' ws ++ [' ']) ++ [[]]).flatMap (fun l => l ++ nl)

theorem gridText_words (hs ds : List (List Str)) (hh : ∀ ws ∈ hs, GoodWords ws) (hd : ∀ ws ∈ ds, GoodWords ws) :
    TextWords (gridText hs ds) (hs ++ ds) ∧ NoVtFf (gridText hs ds) := by
  have e : gridText hs ds = join '\n' ((hs.map (join ' ') ++ ds.map (fun ws => join ' ' ws ++ [' ']) ++ [[]]) ++ [[]]) := by
    rw [← join_lines, List.append_nil]; rfl
  have hchar : ∀ l ∈ (hs.map (join ' ') ++ ds.map (fun ws => join ' ' ws ++ [' ']) ++ [[]]) ++ [[]], ∀ c ∈ l, 32 ≤ c.toNat := by
    intro l hl c hc
    simp only [List.mem_append, List.mem_map, List.mem_singleton] at hl
    rcases hl with ((⟨ws, hw, rfl⟩ | ⟨ws, hw, rfl⟩) | rfl) | rfl
    · exact (hh ws hw).chars c hc
    · rcases List.mem_append.1 hc with hc | hc
      · exact (hd ws hw).chars c hc
      · simp at hc; subst hc; decide
    · simp at hc
    · simp at hc
  refine ⟨⟨(hs ++ ds).map (join ' '), ⟨_, by simp, ?_, e, ?_⟩, ?_⟩, ?_⟩
  · intro l hl hn
    have := hchar l hl '\n' hn
    revert this; decide
  · have h1 := contentLines_words [] (by simp) hs hh
    have h2 := contentLines_words [' '] (by simp [Blank]) ds hd
    simp only [List.append_nil] at h1
    have h3 : ContentLines [[], []] [] := .skip _ _ _ _ trimmed_nil (Or.inl rfl) (.skip _ _ _ _ trimmed_nil (Or.inl rfl) .nil)
    have := contentLines_append (contentLines_append h1 h2) h3
    simpa using this
  · rw [List.map_append]
    have h1 := forall₂_words (hs ++ ds) (by
      intro ws hw
      rcases List.mem_append.1 hw with hw | hw
      · exact hh ws hw
      · exact hd ws hw)
    rwa [List.map_append] at h1
  · intro c hc
    rw [e] at hc
    rcases mem_join_cases hc with rfl | ⟨l, hl, hc⟩
    · decide
    · have := hchar l hl c hc; omega

/-! ### Printed numbers as words -/

theorem decText_charge {s : Str} {q : ℚ} (h : DecText s q) : ∀ c ∈ s, 43 ≤ c.toNat := by
  intro c hc
  rcases decText_chars h c hc with rfl | rfl | rfl | rfl | rfl | h
  · decide
  · decide
  · decide
  · decide
  · decide
  · omega

theorem decText_headle {s : Str} {q : ℚ} (h : DecText s q) : ∀ c, s.head? = some c → c.toNat ≤ 57 := by
  obtain ⟨a, t, rfl, ha⟩ := decText_head h
  intro c hc
  simp at hc; subst hc
  rcases ha with rfl | ha
  · decide
  · omega

/-- A printer of numbers: the text denotes `den v` and consists of number characters. -/
structure Prints (pr : τ → Str) (den : τ → ℚ) (v : τ) : Prop where
  text : NumText (pr v) (.fin (den v))
  ne : pr v ≠ []
  chars : ∀ c ∈ pr v, 43 ≤ c.toNat
  head : ∀ c, (pr v).head? = some c → c.toNat ≤ 57

theorem fmtG_prints (x : ℚ) : Prints fmtG gRound x := by
  have h0 := fmtG_text x
  have : (∀ c ∈ fmtG x, 43 ≤ c.toNat) ∧ (∀ c, (fmtG x).head? = some c → c.toNat ≤ 57) ∧ fmtG x ≠ [] := by
    unfold fmtG
    split_ifs with h1 h2
    · refine ⟨?_, ?_, by simp⟩
      · intro c hc; simp at hc; subst hc; decide
      · intro c hc; simp at hc; subst hc; decide
    · have hd := fmtPos_text (-x) (by linarith)
      refine ⟨?_, ?_, by simp⟩
      · intro c hc
        rcases List.mem_cons.1 hc with rfl | hc
        · decide
        · exact decText_charge hd c hc
      · intro c hc; simp at hc; subst hc; decide
    · have hx : 0 < x := lt_of_le_of_ne (not_lt.1 h2) (Ne.symm h1)
      have hd := fmtPos_text x hx
      refine ⟨decText_charge hd, decText_headle hd, ?_⟩
      obtain ⟨c, t, e, _⟩ := decText_head hd
      rw [e]; simp
  exact ⟨h0, this.2.2, this.1, this.2.1⟩

theorem intToDec_prints (v : Int) : Prints intToDec (fun z : Int => (z : ℚ)) v := by
  refine ⟨intToDec_text v, ?_, ?_, ?_⟩
  · cases v with
    | ofNat n => exact natToDec_ne_nil n
    | negSucc n => simp [intToDec]
  · intro c hc
    cases v with
    | ofNat n => have := natToDec_digits n c hc; omega
    | negSucc n =>
      simp only [intToDec] at hc
      rcases List.mem_cons.1 hc with rfl | hc
      · decide
      · have := natToDec_digits _ c hc; omega
  · intro c hc
    cases v with
    | ofNat n => have := natToDec_digits n c (List.mem_of_mem_head? hc); omega
    | negSucc n => simp only [intToDec, List.head?_cons, Option.some.injEq] at hc; subst hc; decide

theorem not_key_of_head {k : Str} {c : Char} (hc : k.head? = some c) (h : c.toNat ≤ 57) :
    ∀ key ∈ ascKeys, ¬ SameText k key := by
  intro key hkey hs
  cases k with
  | nil => simp at hc
  | cons a k =>
    simp at hc; subst hc
    have hk : ∃ b, key[0]? = some b ∧ 65 ≤ b.toNat ∧ b.toNat ≤ 90 := by
      simp only [ascKeys, List.mem_cons, List.not_mem_nil, or_false] at hkey
      rcases hkey with rfl | rfl | rfl | rfl | rfl | rfl | rfl | rfl <;> exact ⟨_, rfl, by decide⟩
    obtain ⟨b, hb, h1, h2⟩ := hk
    have := hs.2 0 a b rfl hb
    unfold SameLetter at this
    rcases this with rfl | h3 | h3 <;> omega

theorem prints_goodWords {pr : τ → Str} {den : τ → ℚ} (vs : List τ) (hne : vs ≠ []) (h : ∀ v ∈ vs, Prints pr den v) :
    GoodWords (vs.map pr) ∧ DataLine (vs.map pr) ∧ List.Forall₂ NumText (vs.map pr) (vs.map (fun v => DVal.fin (den v))) := by
  refine ⟨⟨by simpa using hne, ?_, ?_⟩, ?_, ?_⟩
  · intro w hw
    obtain ⟨v, hv, rfl⟩ := List.mem_map.1 hw
    refine ⟨(h v hv).ne, fun c hc => ?_⟩
    have := (h v hv).chars c hc; omega
  · intro w hw hc
    have hm : w ∈ vs.map pr := List.mem_of_mem_head? hw
    obtain ⟨v, hv, rfl⟩ := List.mem_map.1 hm
    have := (h v hv).chars '#' (List.mem_of_mem_head? hc)
    revert this; decide
  · cases vs with
    | nil => exact absurd rfl hne
    | cons v vs =>
      have hp := h v (by simp)
      obtain ⟨c, t, hct⟩ := List.exists_cons_of_ne_nil hp.ne
      exact ⟨pr v, vs.map pr, rfl, not_key_of_head (c := c) (by rw [hct]; rfl) (hp.head c (by rw [hct]; rfl))⟩
  · clear hne
    induction vs with
    | nil => exact .nil
    | cons v vs ih => exact .cons (h v (by simp)).text (ih (fun u hu => h u (by simp [hu])))

/-! ### Rows -/

theorem take_eq_map_getD (l : List τ) (d : τ) (n : Nat) (h : n ≤ l.length) :
    l.take n = (List.range n).map (fun j => l.getD j d) := by
  apply List.ext_getElem
  · simp [h]
  · intro i h1 h2
    simp only [List.length_take] at h1
    rw [List.getElem_take, List.getElem_map, List.getElem_range, List.getD_eq_getElem _ _ (by omega)]

theorem ascRow_ok (vals : List τ) (c i rows : Nat) (hi : i < rows) (hl : vals.length = rows * c) :
    ascRow (some vals) (c : Int) i = .ok ((vals.drop (i * c)).take c) := by
  have hle : i * c + c ≤ vals.length := by
    rw [hl]; have : (i + 1) * c ≤ rows * c := Nat.mul_le_mul_right _ hi
    rw [Nat.add_mul, Nat.one_mul] at this; exact this
  unfold ascRow
  rw [Int.toNat_natCast]
  by_cases hc : c = 0
  · subst hc; rfl
  have hd : vals ≠ [] := by intro h0; rw [h0] at hle; simp at hle; omega
  obtain ⟨d, _⟩ := List.exists_mem_of_ne_nil vals hd
  rw [Raster.mapM_ok _ (fun j => (vals.drop (i * c)).getD j d)]
  · rw [take_eq_map_getD _ d c (by simp; omega)]
  · intro j hj
    have hj := List.mem_range.1 hj
    have e : ((i : Int) * (c : Int) + (j : Int)) = ((i * c + j : Nat) : Int) := by push_cast; ring
    rw [e]
    simp only [readAt]
    rw [if_pos (by omega), Int.toNat_natCast, List.getElem?_eq_getElem (by omega)]
    rw [List.getD_eq_getElem _ _ (by simp; omega)]
    simp

/-- The rows of a row-major grid. -/
def gridRows (rows c : Nat) (vals : List τ) : List (List τ) :=
  (List.range rows).map (fun i => (vals.drop (i * c)).take c)

theorem gridRows_flatten (rows c : Nat) (vals : List τ) (hl : vals.length = rows * c) : (gridRows rows c vals).flatten = vals := by
  unfold gridRows
  induction rows generalizing vals with
  | zero => simp at hl; subst hl; rfl
  | succ n ih =>
    rw [List.range_succ_eq_map, List.map_cons, List.flatten_cons, List.map_map]
    have e : ((fun i => (vals.drop (i * c)).take c) ∘ Nat.succ) = (fun i => ((vals.drop c).drop (i * c)).take c) := by
      funext i
      simp only [Function.comp, List.drop_drop]
      congr 2
      rw [Nat.succ_mul]; omega
    rw [e, ih (vals.drop c) (by rw [List.length_drop, hl, Nat.succ_mul]; omega)]
    simp

theorem flatMap_row (pr : τ → Str) (vs : List τ) (hne : vs ≠ []) :
    vs.flatMap (fun v => pr v ++ [' ']) = join ' ' (vs.map pr) ++ [' '] := by
  induction vs with
  | nil => exact absurd rfl hne
  | cons v vs ih =>
    cases vs with
    | nil => simp [join]
    | cons u us =>
      have e : join ' ' ((v :: u :: us).map pr) = pr v ++ ' ' :: join ' ' ((u :: us).map pr) := rfl
      rw [e, List.flatMap_cons, ih (by simp)]
      simp

/-- Words of the six header lines. -/
def headWords (h : Header) : List (List Str) :=
  [[kNcols, intToDec h.cols], [kNrows, intToDec h.rows], [kXll, fmtG h.xll], [kYll, fmtG h.yll],
    [kCellsize, fmtG h.cellsize], [kNodata, fmtG h.noData]]

theorem writeAsc_text (pr : τ → Str) (h : Header) (rows c : Nat) (hr : h.rows = rows) (hc : h.cols = c) (hc0 : 0 < c)
    (vals : List τ) (hl : vals.length = rows * c) :
    writeAsc pr h (some vals) = .ok (gridText (headWords h) ((gridRows rows c vals).map (fun vs => vs.map pr))) := by
  unfold writeAsc
  have hrow : ∀ i ∈ List.range rows, (do
      let vs ← ascRow (some vals) h.cols i
      return ascRowText pr vs : Out Str) = .ok (ascRowText pr ((vals.drop (i * c)).take c)) := by
    intro i hi
    rw [hc, ascRow_ok vals c i rows (List.mem_range.1 hi) hl]; rfl
  rw [hr, Int.toNat_natCast, Raster.mapM_ok _ (fun i => ascRowText pr ((vals.drop (i * c)).take c)) _ hrow]
  simp only [Out.ok_bind, Out.pure_eq]
  congr 1
  unfold gridText
  rw [List.flatMap_append, List.flatMap_append]
  have e1 : ((headWords h).map (join ' ')).flatMap (fun l => l ++ nl) = ascHeaderText h := by
    simp [headWords, join, ascHeaderText, List.flatMap_cons]
  have e2 : (((gridRows rows c vals).map (fun vs => vs.map pr)).map (fun ws => join ' ' ws ++ [' '])).flatMap (fun l => l ++ nl) =
      ((List.range rows).map (fun i => ascRowText pr ((vals.drop (i * c)).take c))).flatten := by
    rw [List.flatMap_def, gridRows, List.map_map, List.map_map, List.map_map]
    congr 1
    apply List.map_congr_left
    intro i hi
    have hi := List.mem_range.1 hi
    have hle : i * c + c ≤ vals.length := by
      rw [hl]; have : (i + 1) * c ≤ rows * c := Nat.mul_le_mul_right _ hi
      rw [Nat.add_mul, Nat.one_mul] at this; exact this
    have hne : (vals.drop (i * c)).take c ≠ [] := by
      intro h0
      have := congrArg List.length h0
      simp at this; omega
    simp only [Function.comp, ascRowText]
    rw [flatMap_row pr _ hne]
  rw [e1, e2]
  simp

end CCGL
