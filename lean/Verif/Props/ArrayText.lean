import Verif.Lemmas.ArrayText
/-!
# C81: arrays in text files

What the text output functions write, what the reading templates read, and that the two formats differ.
-/
namespace CCGL
namespace ArrText
open Spec

variable {τ : Type}

/-! ## Helper lemmas -/

theorem fmtG_denotes (v : ℚ) : Denotes (fmtG v) v := ⟨gRound v, fmtG_text v, gRound_near v, fun h => gRound_exact h⟩

theorem fmtG_word (v : ℚ) : fmtG v ≠ [] ∧ ∀ c ∈ fmtG v, ¬ White c := by
  have h := fmtG_prints v
  exact ⟨h.ne, fun c hc hw => by have := h.chars c hc; have := white_lt hw; omega⟩

theorem fmtG_all (vs : List ℚ) : List.Forall₂ Denotes (vs.map fmtG) vs := by
  induction vs with
  | nil => exact .nil
  | cons v vs ih => exact .cons (fmtG_denotes v) ih

theorem tab_words (vs : List ℚ) : IsWords (vs.flatMap (fun v => fmtG v ++ ['\t'])) (vs.map fmtG) := by
  induction vs with
  | nil => exact .nil [] (by simp)
  | cons v vs ih =>
    have tabw : White '\t' := by unfold White; decide
    have h2 : IsWords ('\t' :: vs.flatMap (fun v => fmtG v ++ ['\t'])) (vs.map fmtG) := by
      cases vs with
      | nil => exact .nil _ (by simp [tabw])
      | cons u us =>
        obtain ⟨pre, rest, he, hp, hne, hw, hr, hws⟩ := isWords_cons ih
        have := IsWords.cons ('\t' :: pre) (fmtG u) rest _ (by
          intro c hc
          rcases List.mem_cons.1 hc with rfl | hc
          · exact tabw
          · exact hp c hc) hne hw hr hws
        rw [he]
        simpa using this
    have := IsWords.cons [] (fmtG v) ('\t' :: vs.flatMap (fun v => fmtG v ++ ['\t'])) (vs.map fmtG) (by simp)
      (fmtG_word v).1 (fmtG_word v).2 (by intro c hc; simp at hc; subst hc; exact tabw) h2
    simpa using this

theorem contentLines_fmtG (vs : List ℚ) : ContentLines (vs.map fmtG ++ [[]]) (vs.map fmtG) := by
  induction vs with
  | nil => exact .skip [] [] [] [] ⟨[], [], by simp, by simp, by simp, by simp, by simp⟩ (Or.inl rfl) .nil
  | cons v vs ih =>
    have h := fmtG_prints v
    refine .keep (fmtG v) (fmtG v) _ _ ⟨[], [], by simp, by simp, by simp, ?_, ?_⟩ h.ne ?_ ih
    · intro c hc hb
      have := h.chars c (List.mem_of_mem_head? hc)
      have := blank_lt hb; omega
    · intro c hc hb
      have := h.chars c (List.mem_of_getLast? hc)
      have := blank_lt hb; omega
    · intro hc
      have := h.chars '#' (List.mem_of_mem_head? hc)
      revert this; decide

theorem mapM_forall {α β γ : Type} (f : α → Out β) (xs : List α) (cs : List γ) (g : γ → β)
    (h : List.Forall₂ (fun x c => f x = .ok (g c)) xs cs) : xs.mapM f = .ok (cs.map g) := by
  induction h with
  | nil => rfl
  | cons hx _ ih => rw [List.mapM_cons, hx, Out.ok_bind, ih, Out.ok_bind]; rfl

theorem mapM_range_holds {β γ : Type} (data : Ptr γ) (n : Int) (ps : List γ) (h : Holds data n ps) (f : γ → Out β) :
    (List.range n.toNat).mapM (fun (i : Nat) => (do let p ← readAt data i; f p : Out β)) = ps.mapM f := by
  obtain ⟨rest, rfl, hl⟩ := h
  have hn : n.toNat = ps.length := by omega
  rw [hn]
  clear hl hn
  induction ps using List.reverseRecOn generalizing rest with
  | nil => rfl
  | append_singleton ps p ih =>
    have e : (ps ++ [p]).length = ps.length + 1 := by simp
    rw [e, List.range_succ, List.mapM_append, List.mapM_append]
    have h1 := ih (p :: rest)
    have e1 : ps ++ [p] ++ rest = ps ++ p :: rest := by simp
    rw [e1, h1]
    have e2 : (ps ++ p :: rest)[ps.length]? = some p := by simp
    simp only [List.mapM_cons, List.mapM_nil, readAt, Int.natCast_nonneg, if_true, Int.toNat_natCast, e2, Out.ok_bind]

/-! ## Output -/

/-- `Output1DArrayToTxtFile`: one line per value, in order; the lines read back are the values up to six significant digits. -/
theorem C81_output1D (n : Int) (data : Ptr ℚ) (vs : List ℚ) (h : Holds data n vs) :
    ∃ text ws, output1D fmtG n data = .ok text ∧ TextContent text ws ∧ List.Forall₂ Denotes ws vs ∧
      ∀ old, loadPlainTextFile (some text) old = (true, old ++ ws) := by
  have hc : TextContent (vs.flatMap (fun v => fmtG v ++ ['\n'])) (vs.map fmtG) := by
    refine ⟨vs.map fmtG ++ [[]], by simp, ?_, ?_, contentLines_fmtG vs⟩
    · intro l hl hm
      rcases List.mem_append.1 hl with hl | hl
      · obtain ⟨v, _, rfl⟩ := List.mem_map.1 hl
        exact (fmtG_word v).2 _ hm (by unfold White; decide)
      · simp at hl; subst hl; simp at hm
    · rw [← join_lines, List.append_nil, List.flatMap_map]; rfl
  refine ⟨_, _, ?_, hc, fmtG_all vs, fun old => loadPlain_content _ old _ hc⟩
  simp only [output1D, cells_holds data n vs h, Out.ok_bind, Out.pure_eq]

/-- `Output2DArrayToTxtFile`: one line per row; the line has one word per column, each followed by one tabulator. -/
theorem C81_output2D (rows cols : Int) (data : Ptr (Ptr ℚ)) (rs : List (List ℚ)) (h : HoldsRows data rows cols rs) :
    ∃ text lines, output2D fmtG rows cols data = .ok text ∧ text = join '\n' (lines ++ [[]]) ∧ (∀ l ∈ lines, '\n' ∉ l) ∧
      List.Forall₂ (fun l r => ∃ ws, IsWords l ws ∧ l = ws.flatMap (fun w => w ++ ['\t']) ∧ List.Forall₂ Denotes ws r) lines rs := by
  obtain ⟨ps, h1, h2⟩ := h
  refine ⟨_, rs.map (fun r => r.flatMap (fun v => fmtG v ++ ['\t'])), ?_, (join_lines _ _), ?_, ?_⟩
  · unfold output2D
    have e := mapM_range_holds data rows ps h1 (fun row => (do
      let vs ← cells row cols
      return vs.flatMap (fun v => fmtG v ++ ['\t']) ++ ['\n'] : Out Str))
    rw [e, mapM_forall _ ps rs (fun r => r.flatMap (fun v => fmtG v ++ ['\t']) ++ ['\n']) (by
      refine h2.imp ?_
      intro p r hp
      simp only [cells_holds p cols r hp, Out.ok_bind, Out.pure_eq])]
    rw [Out.ok_bind, Out.pure_eq, List.append_nil, List.flatMap_map, List.flatMap_def]
    rfl
  · intro l hl hm
    obtain ⟨r, _, rfl⟩ := List.mem_map.1 hl
    obtain ⟨v, _, hv⟩ := List.mem_flatMap.1 hm
    rcases List.mem_append.1 hv with hv | hv
    · exact (fmtG_word v).2 _ hv (by unfold White; decide)
    · revert hv; decide
  · clear h1 h2
    induction rs with
    | nil => exact .nil
    | cons r rs ih =>
      refine .cons ⟨r.map fmtG, tab_words r, ?_, fmtG_all r⟩ ih
      rw [List.flatMap_map]

/-- An array with fewer values than announced, or none, is read outside its bounds. -/
theorem C81_output_short (pr : τ → Str) (n : Int) (data : Ptr τ) (h : ∀ l, data = some l → (l.length : Int) < n) (hn : 0 < n) :
    output1D pr n data = .ub := by
  have key : ∀ (k : Nat) (l : List τ) (b : Nat), l.length < b + k → b ≤ l.length →
      ((List.range' b k).mapM (fun (i : Nat) => readAt (some l) (i : Int)) : Out (List τ)) = .ub := by
    intro k
    induction k with
    | zero => intro l b h1 h2; omega
    | succ k ih =>
      intro l b h1 h2
      rw [List.range'_succ, List.mapM_cons]
      by_cases hb : b < l.length
      · have e : readAt (some l) (b : Int) = .ok l[b] := by simp [readAt, hb]
        rw [e, Out.ok_bind, ih l (b + 1) (by omega) (by omega)]; rfl
      · have e : readAt (some l) (b : Int) = .ub := by simp [readAt, Nat.le_of_not_lt hb]
        rw [e]; rfl
  have h0 : cells data n = .ub := by
    unfold cells
    cases data with
    | none =>
      obtain ⟨k, hk⟩ : ∃ k, n.toNat = k + 1 := ⟨n.toNat - 1, by omega⟩
      rw [hk, List.range_eq_range', List.range'_succ, List.mapM_cons]; rfl
    | some l =>
      have := h l rfl
      rw [List.range_eq_range']
      exact key _ l 0 (by omega) (by omega)
  unfold output1D
  rw [h0]; rfl

/-! ## Input -/

/-- The reading templates on `int`: a decimal number of 32 bits is read as its value; at the end of the text nothing is assigned. -/
theorem C81_int (w : Str) (i : Int) (hw : IsDecInt w i) (h : -(2 ^ 31) ≤ i ∧ i < 2 ^ 31) : Extracts readInt w i ∧ StopsAtEnd readInt := by
  obtain rfl := (isDecInt_iff w i).1 hw
  exact ⟨readInt_extracts i h, readInt_stops⟩

/-- `Read1DArrayFromTxtFile`: a title word, the number of values and the values, then anything. -/
theorem C81_read1D (get : In → Option τ → Option τ × In) (text title k : Str) (ts more : List Str) (vs : List τ)
    (hw : IsWords text (title :: k :: ts ++ more)) (hk : IsDecInt k vs.length) (hn : vs.length < 2 ^ 31)
    (ht : List.Forall₂ (Extracts get) ts vs) (old : Option Int) :
    read1D get (some text) old = .ok (some vs.length, vs.map some) := by
  have e : title :: k :: ts ++ more = title :: k :: (ts ++ more) := by simp
  rw [e] at hw
  obtain ⟨pre, rest, rfl, hp, h1, h2, h3, hws⟩ := isWords_cons hw
  obtain ⟨pre', rest', rfl, hp', _, _, h3', hws'⟩ := isWords_cons hws
  obtain rfl := (isDecInt_iff k _).1 hk
  have hi := readInt_extracts (vs.length : Int) ⟨by omega, by omega⟩ pre' rest' old hp' h3'
  obtain ⟨r, h4, _⟩ := readMany_words get ts vs ht rest' more hws'
  have a : ¬ ((vs.length : Int) < 0) := by omega
  unfold read1D openIn
  simp only [readWord_word pre title _ [] hp h1 h2 h3, hi, a, if_false, Int.toNat_natCast, h4]

/-- A text that ends early leaves the remaining values of the array unassigned. -/
theorem C81_read1D_short (get : In → Option τ → Option τ × In) (hs : StopsAtEnd get) (text title k : Str) (ts : List Str) (vs : List τ) (m : Nat)
    (hw : IsWords text (title :: k :: ts)) (hk : IsDecInt k ((vs.length + m : Nat) : Int)) (hn : vs.length + m < 2 ^ 31)
    (ht : List.Forall₂ (Extracts get) ts vs) (old : Option Int) :
    read1D get (some text) old = .ok (some ((vs.length + m : Nat) : Int), vs.map some ++ List.replicate m none) := by
  obtain ⟨pre, rest, rfl, hp, h1, h2, h3, hws⟩ := isWords_cons hw
  obtain ⟨pre', rest', rfl, hp', _, _, h3', hws'⟩ := isWords_cons hws
  obtain rfl := (isDecInt_iff k _).1 hk
  have hi := readInt_extracts ((vs.length + m : Nat) : Int) ⟨by omega, by omega⟩ pre' rest' old hp' h3'
  have h4 := readMany_short get hs ts vs ht rest' hws' m
  have a : ¬ (((vs.length + m : Nat) : Int) < 0) := by omega
  unfold read1D openIn
  simp only [readWord_word pre title _ [] hp h1 h2 h3, hi, a, if_false, Int.toNat_natCast, h4]

/-- `Read2DArrayFromTxtFile`, `Read2DArrayFromString`: a title word, the number of rows, and per row the number of its values and the values. Each row of the
result starts with its number of values. -/
theorem C81_read2D (get : In → Option τ → Option τ × In) (ofInt : Int → τ) (text title k : Str) (ws more : List Str) (rows : List (List τ))
    (hw : IsWords text (title :: k :: ws ++ more)) (hk : IsDecInt k rows.length) (hn : rows.length < 2 ^ 31)
    (ht : RowWords get ws rows) (old : Option Int) :
    read2D get ofInt (some text) old = .ok (some rows.length, rows.map (fun vs => some (ofInt vs.length) :: vs.map some)) := by
  have e : title :: k :: ws ++ more = title :: k :: (ws ++ more) := by simp
  rw [e] at hw
  obtain ⟨pre, rest, rfl, hp, h1, h2, h3, hws⟩ := isWords_cons hw
  obtain ⟨pre', rest', rfl, hp', _, _, h3', hws'⟩ := isWords_cons hws
  obtain rfl := (isDecInt_iff k _).1 hk
  have hi := readInt_extracts (rows.length : Int) ⟨by omega, by omega⟩ pre' rest' old hp' h3'
  have h4 := readRows_words get ofInt ws rows ht rest' more hws' none
  have a : ¬ ((rows.length : Int) < 0) := by omega
  unfold read2D openIn
  simp only [readWord_word pre title _ [] hp h1 h2 h3, hi, a, if_false, Int.toNat_natCast, h4, Out.ok_bind, Out.pure_eq]

/-- A missing file is not reported: the caller's number of values is kept and nothing is assigned; an uninitialised number, and every two-dimensional
array with rows, is undefined behaviour. -/
theorem C81_missing_file (get : In → Option τ → Option τ × In) (hs : StopsAtEnd get) (ofInt : Int → τ) (n : Int) (hn : 0 < n) :
    read1D get none (some n) = .ok (some n, List.replicate n.toNat none) ∧ read1D get none none = .ub ∧
      read2D get ofInt none (some n) = .ub ∧ read2D get ofInt none none = .ub := by
  have a : ¬ (n < 0) := by omega
  obtain ⟨k, hk⟩ : ∃ k, n.toNat = k + 1 := ⟨n.toNat - 1, by omega⟩
  refine ⟨?_, rfl, ?_, rfl⟩
  · simp only [read1D, openIn, readWord, if_true, readInt, a, if_false, readMany_failed get hs]
  · simp only [read2D, openIn, readWord, if_true, readInt, a, if_false, hk, readRows]
    rfl

/-- The format of the reading functions is not the one that is written: the first value is taken for the title and the second for the number of values. -/
theorem C81_formats_differ :
    output1D intToDec 3 (some [3, 1, 2]) = .ok "3\n1\n2\n".toList ∧
      read1D readInt (some "3\n1\n2\n".toList) none = .ok (some 1, [some 2]) := by
  constructor <;> decide +kernel

/-- A negative number of values of a row: `-1` writes outside the row, less throws. -/
theorem C81_negative_row :
    read2D readInt id (some "r 1 -1".toList) none = .ub ∧ read2D readInt id (some "r 1 -2".toList) none = .exn ∧
      read1D readInt (some "r -2".toList) none = .exn := by
  refine ⟨?_, ?_, ?_⟩ <;> decide +kernel

/-! ## Concrete cases -/

/-- `-5` and `1/3` in an array of three. -/
example : Holds (some [-5, 1 / 3, 7]) 2 [-5, (1 / 3 : ℚ)] := ⟨[7], rfl, rfl⟩

example : HoldsRows (some [some [1, 2], some [3, 4, 5]]) 2 2 [[1, 2], [3, 4]] :=
  ⟨[some [1, 2], some [3, 4, 5]], ⟨[], rfl, rfl⟩, .cons ⟨[], rfl, rfl⟩ (.cons ⟨[5], rfl, rfl⟩ .nil)⟩

example : read1D readInt (some "slope 3\n7 -8\n 9 rest".toList) none = .ok (some 3, [some 7, some (-8), some 9]) := by decide +kernel

example : read1D readInt (some "slope 3\n7 ".toList) none = .ok (some 3, [some 7, none, none]) := by decide +kernel

example : read2D readInt id (some "rows 2\n2 5 6\n0\n".toList) none = .ok (some 2, [[some 2, some 5, some 6], [some 0]]) := by decide +kernel

/-- The words of the last text. -/
example : RowWords readInt ["2".toList, "5".toList, "-6".toList, "0".toList] [[5, -6], []] := by
  have x2 : IsDecInt "2".toList 2 := (isDecInt_iff _ _).2 (by decide +kernel)
  have x5 : IsDecInt "5".toList 5 := (isDecInt_iff _ _).2 (by decide +kernel)
  have x6 : IsDecInt "-6".toList (-6) := (isDecInt_iff _ _).2 (by decide +kernel)
  have x0 : IsDecInt "0".toList 0 := (isDecInt_iff _ _).2 (by decide +kernel)
  exact .cons "2".toList ["5".toList, "-6".toList] ["0".toList] [5, -6] [[]] x2 (by decide)
    (.cons (C81_int _ _ x5 (by decide)).1 (.cons (C81_int _ _ x6 (by decide)).1 .nil))
    (.cons "0".toList [] [] [] [] x0 (by decide) .nil .nil)

end ArrText
end CCGL
