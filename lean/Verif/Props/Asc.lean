import Verif.Lemmas.Asc
import Verif.Props.Dec
/-!
# Plain text files and the ASCII grid reader (C54, C09)
-/
namespace CCGL
open Spec
variable {τ : Type}

/-! ## C54 -/

/-- C54: `LoadPlainTextFile` appends exactly the content lines of the text, in order. -/
theorem C54_content (text : Str) (old out : List Str) (h : TextContent text out) :
    loadPlainTextFile (some text) old = (true, old ++ out) := loadPlain_content text old out h

/-- C54: every text has content lines and they are determined by the text, so `C54_content` covers every file. -/
theorem C54_total (text : Str) : ∃ out, TextContent text out := textContent_total text
theorem C54_unique (text : Str) (a b : List Str) (ha : TextContent text a) (hb : TextContent text b) : a = b := by
  have h1 := loadPlain_content text [] a ha
  have h2 := loadPlain_content text [] b hb
  rw [h1] at h2
  simpa using h2

/-- C54: a file that cannot be opened is reported and adds nothing. -/
theorem C54_missing (old : List Str) : loadPlainTextFile none old = (false, old) := rfl

example : loadPlainTextFile (some "# c\n a b \n\n\tx#\r\n".toList) [] = (true, ["a b".toList, "x#".toList]) := by
  decide +kernel
example : TextContent " a \n#b".toList ["a".toList] := by
  refine ⟨[" a ".toList, "#b".toList], by simp, by decide, by decide, ?_⟩
  refine .keep _ "a".toList _ _ ⟨" ".toList, " ".toList, by decide, ?_, ?_, ?_, ?_⟩ (by decide) (by decide)
    (.skip _ "#b".toList _ _ ⟨[], [], by decide, ?_, ?_, ?_, ?_⟩ (by decide) .nil) <;> simp [Blank]

/-! ## C09 -/

theorem mulInt_ok {r c : Int} (h0 : 0 ≤ r * c) (h : r * c < 2 ^ 31) : mulInt r c = .ok ((r * c).toNat : Int) := by
  unfold mulInt
  have h2 : -(2 ^ 31) ≤ r * c := by omega
  rw [if_pos ⟨h2, h⟩, Int.toNat_of_nonneg h0]

theorem word_isNumber {t : Str} (h : t ≠ []) : (isDouble t).2 = true ↔ ∃ v, NumText t v :=
  C37_isNumber_partial t h

theorem textWords_nonempty {text : Str} {wss : List (List Str)} (h : TextWords text wss) :
    ∀ ws ∈ wss, ∀ w ∈ ws, w ≠ [] := by
  obtain ⟨out, _, hw⟩ := h
  clear * - hw
  induction hw with
  | nil => simp
  | cons h1 h2 ih =>
    intro ws hws
    rcases List.mem_cons.1 hws with rfl | hws
    · exact fun w hw => (isWords_words h1 w hw).1
    · exact ih ws hws

/-- The reader on the words of a text. -/
theorem readAsc_words (cast : DVal → τ) {text : Str} {wss : List (List Str)} (h : TextWords text wss)
    (hv : NoVtFf text) (h7 : 7 ≤ wss.length) (hdr : AscHeader) (vals : Ptr τ) :
    readAsc cast (some text) hdr vals = (do
      match ← ascWords cast (.start vals) wss with
      | .fail v => .ok (false, hdr, v)
      | .go s => ascFinish s hdr) := by
  obtain ⟨out, h1, h2⟩ := textWords_load h hv
  unfold readAsc
  have hl : out.length = wss.length := by rw [← h2]; simp
  simp only [h1]
  rw [if_neg (by simp), if_neg (by simp; omega), ascLines_words, h2]
  cases ascWords cast (AscState.start vals) wss with
  | ok f => cases f <;> rfl
  | ub => rfl
  | exn => rfl

/-- C09: a file with fewer than seven content lines is rejected. -/
theorem C09_short (cast : DVal → τ) (text : Str) (out : List Str) (h : TextContent text out) (hl : out.length < 7)
    (hdr : AscHeader) (vals : Ptr τ) : readAsc cast (some text) hdr vals = .ok (false, hdr, vals) := by
  unfold readAsc
  simp only [loadPlain_content text [] out h, List.nil_append]
  rw [if_neg (by simp), if_pos hl]

theorem C09_nofile (cast : DVal → τ) (hdr : AscHeader) (vals : Ptr τ) :
    readAsc cast none hdr vals = .ok (false, hdr, vals) := rfl

/-- Coordinates that the reader takes for "not given". -/
def Spec.LooksMissing (x : DVal) : Prop := ∃ q, x = .fin q ∧ |q - -fltMax| < 1 / 10 ^ 32

theorem isMissing_iff (x : DVal) : x.isMissing = true ↔ LooksMissing x := by
  cases x with
  | fin q => simp [DVal.isMissing, floatEqual, LooksMissing]
  | inf b => simp [DVal.isMissing, LooksMissing]
  | nan => simp [DVal.isMissing, LooksMissing]

/-- Lower-left coordinate after the optional shift from the corner to the centre. -/
def Spec.centre (corner : Bool) (x cs : DVal) : DVal := if corner then x.add cs.half else x

theorem allNum_of_forall₂ {ts : List Str} {vs : List DVal} (h : List.Forall₂ NumText ts vs) :
    allNum ts ∧ ts.map (fun t => (isDouble t).1) = vs ∧ ts.length = vs.length := by
  induction h with
  | nil => exact ⟨by intro t ht; simp at ht, rfl, rfl⟩
  | cons h _ ih =>
    refine ⟨?_, ?_, by simp [ih.2.2]⟩
    · intro t ht
      rcases List.mem_cons.1 ht with rfl | ht
      · rw [isDouble_text h]
      · exact ih.1 t ht
    · rw [List.map_cons, ih.2.1, isDouble_text h]

/-- C09, acceptance: header lines first (each with its value; rows and columns given, nonnegative, product below
2^31), then data lines with at most rows*cols numbers: the values are exactly the numbers of the file in order,
the missing cells are NoData, exactly rows*cols values are stored, and the header is the one of the file. -/
theorem C09_accept (cast : DVal → τ) (text : Str) (hs ds : List (List Str)) (m : AscMeta) (r c : Int)
    (x y cs : DVal) (vs : List DVal) (hdr : AscHeader)
    (ht : TextWords text (hs ++ ds)) (hv : NoVtFf text) (h7 : 7 ≤ (hs ++ ds).length)
    (hh : HeadOf hs m) (hd : ∀ ws ∈ ds, DataLine ws) (hne : ds ≠ [])
    (hr : m.rows = some r) (hc : m.cols = some c) (hr0 : 0 ≤ r) (hc0 : 0 ≤ c) (hn : r * c < 2 ^ 31)
    (hx : m.xll = some x) (hy : m.yll = some y) (hcs : m.cellsize = some cs)
    (hx' : ¬ LooksMissing x) (hy' : ¬ LooksMissing y) (hcs' : cs.isNeg = false)
    (hnum : List.Forall₂ NumText ds.flatten vs) (hle : (vs.length : Int) ≤ r * c) :
    readAsc cast (some text) hdr none = .ok (true,
      { rows := r, cols := c, xll := centre m.xcor x cs, yll := centre m.ycor y cs, cellsize := cs,
        noData := m.noData.getD (.fin (-fltMax)), layers := 1, cellsnum := r * c },
      some (vs.map cast ++ List.replicate ((r * c).toNat - vs.length) (cast (m.noData.getD (.fin (-fltMax)))))) := by
  have h0 : 0 ≤ r * c := mul_nonneg hr0 hc0
  obtain ⟨ha, hmap, hlen⟩ := allNum_of_forall₂ hnum
  have hm : mulInt (stateOf m (none : Ptr τ)).rows (stateOf m (none : Ptr τ)).cols = .ok ((r * c).toNat : Int) := by
    simp only [stateOf, hr, hc, Option.getD_some]; exact mulInt_ok h0 hn
  rw [readAsc_words cast ht hv h7, ascWords_append, headOf_state cast hh none]
  simp only [Out.ok_bind]
  rw [dataLines_accept cast _ ds hd (stateOf m none) hm rfl rfl hne ha (by omega)]
  simp only [Out.ok_bind, ascFinish]
  have hx2 : x.isMissing = false := by rw [Bool.eq_false_iff, ne_eq, isMissing_iff]; exact hx'
  have hy2 : y.isMissing = false := by rw [Bool.eq_false_iff, ne_eq, isMissing_iff]; exact hy'
  have hm2 : mulInt c r = .ok (r * c) := by
    rw [mulInt_ok (by rw [mul_comm]; exact h0) (by rw [mul_comm]; exact hn), mul_comm, Int.toNat_of_nonneg h0]
  simp only [stateOf, hr, hc, hx, hy, hcs, Option.getD_some, hx2, hy2, hcs']
  rw [if_neg (by simp; omega), hm2]
  simp only [Out.ok_bind, Out.pure_eq, centre]
  rw [← hmap, List.map_map, List.length_map]
  rfl

/-- C09, rejection: with the same header, a word that is no number or more than rows*cols values make the reader
fail without keeping any value. -/
theorem C09_reject (cast : DVal → τ) (text : Str) (hs ds : List (List Str)) (m : AscMeta) (r c : Int)
    (hdr : AscHeader)
    (ht : TextWords text (hs ++ ds)) (hv : NoVtFf text) (h7 : 7 ≤ (hs ++ ds).length)
    (hh : HeadOf hs m) (hd : ∀ ws ∈ ds, DataLine ws)
    (hr : m.rows = some r) (hc : m.cols = some c) (h0 : 0 ≤ r * c) (hn : r * c < 2 ^ 31)
    (hbad : (∃ t ∈ ds.flatten, ¬ ∃ v, NumText t v) ∨ r * c < (ds.flatten.length : Int)) :
    readAsc cast (some text) hdr none = .ok (false, hdr, none) := by
  have hm : mulInt (stateOf m (none : Ptr τ)).rows (stateOf m (none : Ptr τ)).cols = .ok ((r * c).toNat : Int) := by
    simp only [stateOf, hr, hc, Option.getD_some]; exact mulInt_ok h0 hn
  rw [readAsc_words cast ht hv h7, ascWords_append, headOf_state cast hh none]
  simp only [Out.ok_bind]
  rw [dataLines_reject cast _ ds hd (stateOf m none) hm rfl rfl ?_]
  · rfl
  · rintro ⟨h1, h2⟩
    rcases hbad with ⟨t, ht', hb⟩ | hb
    · obtain ⟨ws, hws, htw⟩ := List.mem_flatten.1 ht'
      exact hb ((word_isNumber (textWords_nonempty ht ws (by simp [hws]) t htw)).1 (h1 t ht'))
    · omega

/-- C09, incomplete header: without lower-left coordinates or cell size the file is rejected, whatever the
data lines contain. -/
theorem C09_incomplete (cast : DVal → τ) (text : Str) (hs ds : List (List Str)) (m : AscMeta) (r c : Int)
    (hdr : AscHeader)
    (ht : TextWords text (hs ++ ds)) (hv : NoVtFf text) (h7 : 7 ≤ (hs ++ ds).length)
    (hh : HeadOf hs m) (hd : ∀ ws ∈ ds, DataLine ws)
    (hr : m.rows = some r) (hc : m.cols = some c) (h0 : 0 ≤ r * c) (hn : r * c < 2 ^ 31)
    (hmiss : m.xll = none ∨ m.yll = none ∨ m.cellsize = none) :
    ∃ v, readAsc cast (some text) hdr none = .ok (false, hdr, v) := by
  have hm : mulInt (stateOf m (none : Ptr τ)).rows (stateOf m (none : Ptr τ)).cols = .ok ((r * c).toNat : Int) := by
    simp only [stateOf, hr, hc, Option.getD_some]; exact mulInt_ok h0 hn
  have hfin : ∀ (v : Ptr τ) (i : Nat), ascFinish { (stateOf m none : AscState τ) with vals := v, vidx := i } hdr = .ok (false, hdr, v) := by
    intro v i
    unfold ascFinish
    rw [if_pos]
    have e : (DVal.fin (-fltMax)).isMissing = true := by simp [DVal.isMissing, floatEqual]
    have e2 : (DVal.fin (-1)).isNeg = true := by simp [DVal.isNeg]
    rcases hmiss with h | h | h
    · right; right; right; left; simp only [stateOf, h, Option.getD_none, e]
    · right; right; right; right; simp only [stateOf, h, Option.getD_none, e]
    · right; right; left; simp only [stateOf, h, Option.getD_none, e2]
  rw [readAsc_words cast ht hv h7, ascWords_append, headOf_state cast hh none]
  simp only [Out.ok_bind]
  by_cases hg : allNum ds.flatten ∧ ds.flatten.length ≤ (r * c).toNat
  · by_cases hne : ds = []
    · subst hne
      exact ⟨none, hfin none 0⟩
    · rw [dataLines_accept cast _ ds hd (stateOf m none) hm rfl rfl hne hg.1 hg.2]
      exact ⟨_, hfin _ _⟩
  · rw [dataLines_reject cast _ ds hd (stateOf m none) hm rfl rfl hg]
    exact ⟨none, rfl⟩

/-- A header line whose value is missing or not of the required form. -/
def Spec.BadHead (ws : List (List Char)) : Prop :=
  ∃ k rest, ws = k :: rest ∧
    (((SameText k "NCOLS".toList ∨ SameText k "NROWS".toList) ∧
        ∀ v rest', rest = v :: rest' → ¬ ∃ n, IsDecInt v n ∧ Int32 n) ∨
     ((∃ key ∈ ascKeys, SameText k key) ∧ ¬ SameText k "NCOLS".toList ∧ ¬ SameText k "NROWS".toList ∧
        ∀ v rest', rest = v :: rest' → ¬ ∃ x, NumText v x))

/-- C09: a malformed header line makes the reader fail, whatever follows. -/
theorem C09_malformed (cast : DVal → τ) (text : Str) (hs rest : List (List Str)) (bad : List Str) (m : AscMeta)
    (hdr : AscHeader)
    (ht : TextWords text (hs ++ bad :: rest)) (hv : NoVtFf text) (h7 : 7 ≤ (hs ++ bad :: rest).length)
    (hh : HeadOf hs m) (hb : BadHead bad) :
    readAsc cast (some text) hdr none = .ok (false, hdr, none) := by
  rw [readAsc_words cast ht hv h7, ascWords_append, headOf_state cast hh none]
  simp only [Out.ok_bind]
  have hne : ∀ w ∈ bad, w ≠ [] := textWords_nonempty ht bad (by simp)
  have hstep : ascLine cast (stateOf m none) bad = .ok (.fail none) := by
    obtain ⟨k, tl, rfl, hb⟩ := hb
    rcases hb with ⟨hk, hb⟩ | ⟨⟨key, hkey, hk⟩, h1, h2, hb⟩
    · have hi : ascInt (k :: tl) = none := by
        cases tl with
        | nil => rfl
        | cons v tl =>
          simp only [ascInt]
          rw [if_neg]
          intro h
          refine hb v tl rfl ⟨(isInt v).1, ?_⟩
          have := (isInt_iff v (isInt v).1).1 (by rw [← h])
          exact ⟨this.1, this.2⟩
      by_cases hc : stringMatch k kNcols = true
      · simp only [ascLine, hc, if_true, hi, stateOf]
      · have hr : stringMatch k kNrows = true := by
          rcases hk with hk | hk
          · exact absurd ((stringMatch_iff _ _).2 hk) hc
          · exact (stringMatch_iff _ _).2 hk
        simp only [ascLine, hc, hr, if_true, hi, stateOf]
        rfl
    · have hi : ascDbl (k :: tl) = none := by
        cases tl with
        | nil => rfl
        | cons v tl =>
          simp only [ascDbl]
          rw [if_neg]
          intro h
          exact hb v tl rfl ((word_isNumber (hne v (by simp))).1 h)
      have m1 : stringMatch k kNcols = false := by
        rw [Bool.eq_false_iff, ne_eq, stringMatch_iff]; exact h1
      have m2 : stringMatch k kNrows = false := by
        rw [Bool.eq_false_iff, ne_eq, stringMatch_iff]; exact h2
      have hmk := (stringMatch_iff _ _).2 hk
      have hkey' : key = kXll ∨ key = kXllCor ∨ key = kYll ∨ key = kYllCor ∨ key = kCellsize ∨ key = kNodata := by
        simp only [ascKeys, List.mem_cons, List.not_mem_nil, or_false] at hkey
        rcases hkey with rfl | rfl | h
        · exact absurd hk h1
        · exact absurd hk h2
        · exact h
      simp only [ascLine, m1, m2, Bool.false_eq_true, if_false, hi]
      split_ifs with a1 a2 a3 a4
      · rfl
      · rfl
      · rfl
      · rfl
      · exfalso
        simp only [Bool.or_eq_true, not_or] at a1 a2
        rcases hkey' with h | h | h | h | h | h
        · rw [h] at hmk; exact a1.1 hmk
        · rw [h] at hmk; exact a1.2 hmk
        · rw [h] at hmk; exact a2.1 hmk
        · rw [h] at hmk; exact a2.2 hmk
        · rw [h] at hmk; exact a3 hmk
        · rw [h] at hmk; exact a4 hmk
  simp only [ascWords, hstep, Out.ok_bind]

/-- C09, no overrun: if rows and columns come before the first data line and do not change afterwards (other
header lines may be anywhere) and 0 ≤ rows*cols < 2^31, the reader never steps outside of the array: the outcome is
defined, and any array left to the caller has exactly rows*cols values. Missing: rows or columns absent or negative
before the first data line, or given again later (`C09_false_*`). -/
theorem C09_no_overrun_partial (cast : DVal → τ) (text : Str) (hs post : List (List Str)) (m : AscMeta) (r c : Int)
    (hdr : AscHeader)
    (ht : TextWords text (hs ++ post)) (hv : NoVtFf text) (h7 : 7 ≤ (hs ++ post).length)
    (hh : HeadOf hs m) (hp : ∀ ws ∈ post, ¬ DimLine ws)
    (hr : m.rows = some r) (hc : m.cols = some c) (h0 : 0 ≤ r * c) (hn : r * c < 2 ^ 31) :
    ∃ b hd v, readAsc cast (some text) hdr none = .ok (b, hd, v) ∧
      (b = true → ∀ l, v = some l → (l.length : Int) = r * c) ∧ (b = false → hd = hdr) := by
  have hm : mulInt (stateOf m (none : Ptr τ)).rows (stateOf m (none : Ptr τ)).cols = .ok ((r * c).toNat : Int) := by
    simp only [stateOf, hr, hc, Option.getD_some]; exact mulInt_ok h0 hn
  rw [readAsc_words cast ht hv h7, ascWords_append, headOf_state cast hh none]
  simp only [Out.ok_bind]
  obtain ⟨f, hf, hi⟩ := ascWords_safe cast (r * c).toNat post (stateOf m none) ⟨hm, Or.inl ⟨rfl, rfl⟩⟩ hp
  rw [hf]
  simp only [Out.ok_bind]
  cases f with
  | fail v => exact ⟨false, hdr, v, rfl, by simp, by simp⟩
  | go s =>
    obtain ⟨h1, h2⟩ := hi s rfl
    simp only [ascFinish]
    by_cases hb : s.rows < 0 ∨ s.cols < 0 ∨ s.cellsize.isNeg = true ∨ s.xll.isMissing = true ∨ s.yll.isMissing = true
    · rw [if_pos hb]; exact ⟨false, hdr, _, rfl, by simp, by simp⟩
    · rw [if_neg hb]
      have hm2 : mulInt s.cols s.rows = mulInt s.rows s.cols := by unfold mulInt; rw [mul_comm]
      rw [hm2, h1]
      refine ⟨true, _, _, rfl, ?_, by simp⟩
      intro _ l hl
      rcases h2 with ⟨h2, _⟩ | ⟨_, _, l', h2, h3⟩
      · rw [h2] at hl; simp at hl
      · rw [h2] at hl; injection hl with hl; rw [← hl, h3, Int.toNat_of_nonneg h0]

def hdr0 : AscHeader := ⟨0, 0, .fin 0, .fin 0, .fin 0, .fin 0, 0, 0⟩

/-- C09 is false of the code: a file without the number of columns writes through a null pointer instead of being
rejected. -/
theorem C09_false_missing : readAsc id (some
    "NROWS 2\nXLLCENTER 0\nYLLCENTER 0\nCELLSIZE 1\nNODATA_VALUE -9999\n1 2\n3 4\n".toList) hdr0 none = .ub := by
  decide +kernel

/-- C09 is false of the code: when values precede the header, one cell is allocated and later values are
written outside of it. -/
theorem C09_false_order : readAsc id (some
    "1\nNROWS 2\nNCOLS 2\nXLLCENTER 0\nYLLCENTER 0\nCELLSIZE 1\nNODATA_VALUE -9999\n2 3 4\n".toList) hdr0 none = .ub := by
  decide +kernel

/-- C09 is false of the code: the product of rows and columns overflows `int` (undefined behaviour). -/
theorem C09_false_overflow : readAsc id (some
    "NROWS 65536\nNCOLS 65536\nXLLCENTER 0\nYLLCENTER 0\nCELLSIZE 1\nNODATA_VALUE -9999\n1\n".toList) hdr0 none = .ub := by
  decide +kernel

/-- Example file: corner coordinates, one value missing. -/
def exAsc : Str := "ncols 2\nNROWS 2\nXLLCORNER 0\nYLLCENTER 0.5\nCELLSIZE 1\n# c\nNODATA_VALUE -9999\n 1 2e1\n3\n".toList

example : readAsc id (some exAsc) hdr0 none = .ok (true,
    ⟨2, 2, .fin (1 / 2), .fin (1 / 2), .fin 1, .fin (-9999), 1, 4⟩,
    some [.fin 1, .fin 20, .fin 3, .fin (-9999)]) := by decide +kernel
example : readAsc id (some
    "ncols 1\nNROWS 2\nXLLCORNER 0\nYLLCENTER 0.5\nCELLSIZE 1\nNODATA_VALUE -9999\n 1 2e1\n3\n".toList) hdr0 none =
    .ok (false, hdr0, none) := by decide +kernel

end CCGL
