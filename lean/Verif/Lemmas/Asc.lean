import Verif.Model.Asc
import Verif.Spec.Asc
import Verif.Lemmas.DecFmt
import Verif.Lemmas.Raster
/-! Lemmas for text files and ASCII grids. -/
namespace CCGL
open Spec

theorem fileLines_none (s f : Str) (h : getlineOne '\n' s = (f, none)) : fileLines s = [f] := by
  rw [fileLines]; split
  · rw [h]
  · rename_i r hr; rw [h] at hr; simp at hr

theorem fileLines_some (s f r : Str) (h : getlineOne '\n' s = (f, some r)) : fileLines s = f :: fileLines r := by
  rw [fileLines]; split
  · rename_i hr; rw [h] at hr; simp at hr
  · rename_i r' hr; rw [h] at hr; simp at hr; subst hr; rw [h]

theorem fileLines_join (ls : List Str) (hne : ls ≠ []) (hd : ∀ l ∈ ls, '\n' ∉ l) : fileLines (join '\n' ls) = ls := by
  induction ls with
  | nil => exact absurd rfl hne
  | cons f ls ih =>
    cases ls with
    | nil => exact fileLines_none _ _ (getlineOne_none '\n' f (hd f (by simp)))
    | cons g ls =>
      have e : join '\n' (f :: g :: ls) = f ++ '\n' :: join '\n' (g :: ls) := rfl
      rw [e, fileLines_some _ _ _ (getlineOne_append '\n' f _ (hd f (by simp))),
        ih (by simp) (fun l hl => hd l (by simp [hl]))]

theorem fileLines_total (s : Str) : ∃ ls, ls ≠ [] ∧ (∀ l ∈ ls, '\n' ∉ l) ∧ s = join '\n' ls := by
  induction hl : s.length using Nat.strongRecOn generalizing s with
  | _ n ih =>
    obtain ⟨h1, h2⟩ := getlineOne_cases '\n' s
    rcases h2 with ⟨_, h2⟩ | ⟨r, h2, h3⟩
    · exact ⟨[s], by simp, by rw [h2]; simpa using h1, rfl⟩
    · have hlt := getlineOne_length '\n' s r h2
      obtain ⟨ls, hne, hd, hj⟩ := ih r.length (by omega) r rfl
      refine ⟨(getlineOne '\n' s).1 :: ls, by simp, ?_, ?_⟩
      · intro l hl
        rcases List.mem_cons.1 hl with rfl | hl
        · exact h1
        · exact hd l hl
      · cases ls with
        | nil => exact absurd rfl hne
        | cons g ls =>
          conv_lhs => rw [h3]
          rw [hj]; rfl

theorem contentLines_filter (ls : List Str) : ContentLines ls (ls.filterMap (fun l =>
      let t := trim l
      if !t.isEmpty && t.head? ≠ some '#' then some t else none)) := by
  induction ls with
  | nil => exact .nil
  | cons l ls ih =>
    dsimp only at ih ⊢
    by_cases h : (!(trim l).isEmpty && decide ((trim l).head? ≠ some '#')) = true
    · rw [List.filterMap_cons_some (b := trim l) (by rw [if_pos h])]
      simp only [Bool.and_eq_true, Bool.not_eq_true', List.isEmpty_eq_false_iff, decide_eq_true_eq] at h
      exact .keep _ _ _ _ (trim_isTrimmed l) h.1 h.2 ih
    · rw [List.filterMap_cons_none (by rw [if_neg h])]
      refine .skip _ _ _ _ (trim_isTrimmed l) ?_ ih
      simp only [Bool.and_eq_true, Bool.not_eq_true', List.isEmpty_eq_false_iff, decide_eq_true_eq] at h
      tauto

theorem contentLines_unique {ls a b : List Str} (ha : ContentLines ls a) (hb : ContentLines ls b) : a = b := by
  induction ha generalizing b with
  | nil => cases hb; rfl
  | skip l r ls out h hr hs ih =>
    cases hb with
    | skip _ r' _ _ h' hr' hs' => exact ih hs'
    | keep _ r' _ _ h' hne' hr' hs' =>
      have := isTrimmed_unique h h'; subst this; tauto
  | keep l r ls out h hne hr hs ih =>
    cases hb with
    | skip _ r' _ _ h' hr' hs' =>
      have := isTrimmed_unique h h'; subst this; tauto
    | keep _ r' _ _ h' hne' hr' hs' =>
      have := isTrimmed_unique h h'; subst this
      rw [ih hs']

theorem loadPlain_content (text : Str) (old out : List Str) (h : TextContent text out) :
    loadPlainTextFile (some text) old = (true, old ++ out) := by
  obtain ⟨ls, hne, hd, rfl, hc⟩ := h
  unfold loadPlainTextFile
  dsimp only
  rw [fileLines_join ls hne hd]
  congr 2
  exact contentLines_unique (contentLines_filter ls) hc

theorem textContent_total (text : Str) : ∃ out, TextContent text out := by
  obtain ⟨ls, h1, h2, h3⟩ := fileLines_total text
  exact ⟨_, ls, h1, h2, h3, contentLines_filter ls⟩

/-! ### Words -/

theorem words_join (ws : List Str) (hw : ∀ w ∈ ws, w ≠ [] ∧ ∀ c ∈ w, ¬ White c) : IsWords (join ' ' ws) ws := by
  induction ws with
  | nil => exact .nil [] (by simp)
  | cons w ws ih =>
    have ih := ih (fun v hv => hw v (by simp [hv]))
    obtain ⟨h1, h2⟩ := hw w (by simp)
    have hsp : White ' ' := by unfold White; decide
    cases ws with
    | nil =>
      have := IsWords.cons [] w [] [] (by simp) h1 h2 (by simp) (.nil [] (by simp))
      simpa [join] using this
    | cons v vs =>
      have hpre : IsWords (' ' :: join ' ' (v :: vs)) (v :: vs) := by
        generalize join ' ' (v :: vs) = j at ih
        cases ih with
        | cons pre _ rest _ hp hne hw' hr hs =>
          have := IsWords.cons (' ' :: pre) v rest vs (by
            intro c hc
            rcases List.mem_cons.1 hc with rfl | hc
            · exact hsp
            · exact hp c hc) hne hw' hr hs
          simpa using this
      have := IsWords.cons [] w (' ' :: join ' ' (v :: vs)) (v :: vs) (by simp) h1 h2 (by
        intro c hc; simp at hc; rw [← hc]; exact hsp) hpre
      simpa [join] using this

theorem join_getLast (d : Char) (ws : List Str) (hw : ∀ w ∈ ws, w ≠ []) (c : Char) (h : (join d ws).getLast? = some c) :
    ∃ w ∈ ws, w.getLast? = some c := by
  induction ws with
  | nil => simp [join] at h
  | cons w ws ih =>
    cases ws with
    | nil => exact ⟨w, by simp, by simpa [join] using h⟩
    | cons v vs =>
      have e : join d (w :: v :: vs) = w ++ d :: join d (v :: vs) := rfl
      have hne : join d (v :: vs) ≠ [] := by
        cases vs with
        | nil => simpa [join] using hw v (by simp)
        | cons u us => simp [join]
      rw [e, List.getLast?_append, List.getLast?_cons] at h
      cases hj : (join d (v :: vs)).getLast? with
      | none => rw [List.getLast?_eq_none_iff] at hj; exact absurd hj hne
      | some x =>
        rw [hj] at h
        simp at h
        subst h
        obtain ⟨u, hu, h2⟩ := ih (fun u hu => hw u (by simp [hu])) hj
        exact ⟨u, by simp [hu], h2⟩

theorem isWords_words {s : Str} {ws : List Str} (h : IsWords s ws) : ∀ w ∈ ws, w ≠ [] ∧ ∀ c ∈ w, ¬ White c := by
  induction h with
  | nil => simp
  | cons pre w rest ws hp hne hw hr hs ih =>
    intro v hv
    rcases List.mem_cons.1 hv with rfl | hv
    · exact ⟨hne, hw⟩
    · exact ih v hv

theorem trimmed_split {l r : Str} {ws : List Str} (h : IsTrimmed l r) (hne : r ≠ []) (hv : NoVtFf l) (hw : IsWords r ws) :
    splitSpaces r = ws := by
  rw [splitSpaces_spec r ws hw, if_neg, List.append_nil]
  rintro (h0 | ⟨c, h1, h2⟩)
  · exact hne h0
  · obtain ⟨pre, suf, e, _, _, _, h4⟩ := h
    have h5 := h4 c h1
    have hc := hv c (by rw [e]; simp [List.mem_of_getLast? h1])
    have hb : ¬ (c = ' ' ∨ c = '\n' ∨ c = '\r' ∨ c = '\t') := by
      unfold Blank at h5; simpa using h5
    unfold White at h2
    have e1 : c = ' ' ↔ c.toNat = 32 := char_eq_iff_toNat c 32 (by omega)
    have e2 : c = '\t' ↔ c.toNat = 9 := char_eq_iff_toNat c 9 (by omega)
    have e3 : c = '\n' ↔ c.toNat = 10 := char_eq_iff_toNat c 10 (by omega)
    have e4 : c = '\r' ↔ c.toNat = 13 := char_eq_iff_toNat c 13 (by omega)
    rw [e1, e2, e3, e4] at hb
    omega

theorem contentLines_split {ls out : List Str} {wss : List (List Str)} (hc : ContentLines ls out)
    (hv : ∀ l ∈ ls, NoVtFf l) (hw : List.Forall₂ IsWords out wss) : out.map splitSpaces = wss := by
  induction hc generalizing wss with
  | nil => cases hw; rfl
  | skip l r ls out h hr hs ih => exact ih (fun x hx => hv x (by simp [hx])) hw
  | keep l r ls out h hne hr hs ih =>
    cases hw with
    | cons h1 h2 =>
      rw [List.map_cons, ih (fun x hx => hv x (by simp [hx])) h2, trimmed_split h hne (hv l (by simp)) h1]

theorem mem_join (d : Char) (ls : List Str) (l : Str) (hl : l ∈ ls) (c : Char) (hc : c ∈ l) : c ∈ join d ls := by
  induction ls with
  | nil => simp at hl
  | cons f ls ih =>
    cases ls with
    | nil => simp at hl; subst hl; exact hc
    | cons g ls =>
      have e : join d (f :: g :: ls) = f ++ d :: join d (g :: ls) := rfl
      rw [e]
      rcases List.mem_cons.1 hl with rfl | hl
      · simp [hc]
      · have := ih hl; simp [this]

/-- The tokens the reader sees are the words of the content lines. -/
theorem textWords_load {text : Str} {wss : List (List Str)} (h : TextWords text wss) (hv : NoVtFf text) :
    ∃ out, loadPlainTextFile (some text) [] = (true, out) ∧ out.map splitSpaces = wss := by
  obtain ⟨out, hc, hw⟩ := h
  refine ⟨out, by rw [loadPlain_content text [] out hc]; rfl, ?_⟩
  obtain ⟨ls, _, _, rfl, hcl⟩ := hc
  exact contentLines_split hcl (fun l hl c hcl => hv c (mem_join _ _ l hl c hcl)) hw

/-! ### The reader on lists of tokens -/

variable {τ : Type}

/-- `ascLines` on token lists. -/
def ascWords (cast : DVal → τ) : AscState τ → List (List Str) → Out (AscFlow τ)
  | s, [] => .ok (.go s)
  | s, ws :: wss => do
    match ← ascLine cast s ws with
    | .fail v => .ok (.fail v)
    | .go s' => ascWords cast s' wss

theorem ascLines_words (cast : DVal → τ) (s : AscState τ) (ls : List Str) :
    ascLines cast s ls = ascWords cast s (ls.map splitSpaces) := by
  induction ls generalizing s with
  | nil => rfl
  | cons l ls ih =>
    simp only [List.map_cons, ascWords, ascLines]
    cases ascLine cast s (splitSpaces l) with
    | ok f => cases f with
      | go s' => simp [ih]
      | fail v => simp
    | ub => rfl
    | exn => rfl

theorem ascWords_append (cast : DVal → τ) (s : AscState τ) (a b : List (List Str)) :
    ascWords cast s (a ++ b) = (do
      match ← ascWords cast s a with
      | .fail v => .ok (.fail v)
      | .go s' => ascWords cast s' b) := by
  induction a generalizing s with
  | nil => rfl
  | cons ws a ih =>
    simp only [List.cons_append, ascWords]
    cases ascLine cast s ws with
    | ok f => cases f with
      | go s' => simp [ih]
      | fail v => simp
    | ub => rfl
    | exn => rfl

/-- The state after well-formed header lines. -/
def stateOf (m : AscMeta) (vals : Ptr τ) : AscState τ :=
  { cols := m.cols.getD (-1), rows := m.rows.getD (-1), xll := m.xll.getD (.fin (-fltMax)),
    yll := m.yll.getD (.fin (-fltMax)), cellsize := m.cellsize.getD (.fin (-1)),
    noData := m.noData.getD (.fin (-fltMax)), xcor := m.xcor, ycor := m.ycor, vals := vals, vidx := 0 }

theorem stringMatch_key {k key key' : Str} (hk : SameText k key) : stringMatch k key' = stringMatch key key' := by
  have h := (stringMatch_iff k key).2 hk
  simp only [stringMatch, beq_iff_eq] at h ⊢
  rw [h]

theorem isDouble_text {v : Str} {x : DVal} (h : NumText v x) : isDouble v = (x, true) := by
  unfold isDouble; rw [strtod_text h]; simp

theorem headOf_state (cast : DVal → τ) {hs : List (List Str)} {m : AscMeta} (h : HeadOf hs m) (vals : Ptr τ) :
    ascWords cast (.start vals) hs = .ok (.go (stateOf m vals)) := by
  induction h with
  | nil => rfl
  | cols hs m k v rest n h hk hv hn ih =>
    rw [ascWords_append, ih]
    have hi := (isInt_iff v n).2 ⟨hv, hn.1, hn.2⟩
    simp only [Out.ok_bind, ascWords, ascLine, stringMatch_key hk]
    rw [if_pos (by decide)]
    simp [ascInt, hi, stateOf]
  | rows hs m k v rest n h hk hv hn ih =>
    rw [ascWords_append, ih]
    have hi := (isInt_iff v n).2 ⟨hv, hn.1, hn.2⟩
    simp only [Out.ok_bind, ascWords, ascLine, stringMatch_key hk]
    rw [if_neg (by decide), if_pos (by decide)]
    simp [ascInt, hi, stateOf]
  | xll hs m k v rest x h hk hv ih =>
    rw [ascWords_append, ih]
    simp only [Out.ok_bind, ascWords, ascLine, stringMatch_key hk]
    have e : stringMatch "XLLCENTER".toList kXllCor = false := by decide
    rw [if_neg (by decide), if_neg (by decide), if_pos (by decide)]
    simp [ascDbl, isDouble_text hv, stateOf]
    intro h0; exact absurd (h0.symm.trans e) (by simp)
  | xllcor hs m k v rest x h hk hv ih =>
    rw [ascWords_append, ih]
    simp only [Out.ok_bind, ascWords, ascLine, stringMatch_key hk]
    have e : stringMatch "XLLCORNER".toList kXllCor = true := by decide
    rw [if_neg (by decide), if_neg (by decide), if_pos (by decide)]
    simp [ascDbl, isDouble_text hv, stateOf]
    exact Or.inr e
  | yll hs m k v rest x h hk hv ih =>
    rw [ascWords_append, ih]
    simp only [Out.ok_bind, ascWords, ascLine, stringMatch_key hk]
    have e : stringMatch "YLLCENTER".toList kYllCor = false := by decide
    rw [if_neg (by decide), if_neg (by decide), if_neg (by decide), if_pos (by decide)]
    simp [ascDbl, isDouble_text hv, stateOf]
    intro h0; exact absurd (h0.symm.trans e) (by simp)
  | yllcor hs m k v rest x h hk hv ih =>
    rw [ascWords_append, ih]
    simp only [Out.ok_bind, ascWords, ascLine, stringMatch_key hk]
    have e : stringMatch "YLLCORNER".toList kYllCor = true := by decide
    rw [if_neg (by decide), if_neg (by decide), if_neg (by decide), if_pos (by decide)]
    simp [ascDbl, isDouble_text hv, stateOf]
    exact Or.inr e
  | cellsize hs m k v rest x h hk hv ih =>
    rw [ascWords_append, ih]
    simp only [Out.ok_bind, ascWords, ascLine, stringMatch_key hk]
    rw [if_neg (by decide), if_neg (by decide), if_neg (by decide), if_neg (by decide), if_pos (by decide)]
    simp [ascDbl, isDouble_text hv, stateOf]
  | noData hs m k v rest x h hk hv ih =>
    rw [ascWords_append, ih]
    simp only [Out.ok_bind, ascWords, ascLine, stringMatch_key hk]
    rw [if_neg (by decide), if_neg (by decide), if_neg (by decide), if_neg (by decide), if_neg (by decide),
      if_pos (by decide)]
    simp [ascDbl, isDouble_text hv, stateOf]

theorem dataLine_step (cast : DVal → τ) (s : AscState τ) {ws : List Str} (h : DataLine ws) :
    ascLine cast s ws = (do let s' ← ascAlloc cast s; ascTokens cast s' ws) := by
  obtain ⟨k, rest, rfl, hk⟩ := h
  have hno : ∀ key ∈ ascKeys, stringMatch k key = false := by
    intro key hkey
    rw [Bool.eq_false_iff, ne_eq, stringMatch_iff]; exact hk key hkey
  simp only [ascLine]
  rw [show stringMatch k kNcols = false from hno _ (by decide), show stringMatch k kNrows = false from hno _ (by decide),
    show stringMatch k kXll = false from hno _ (by decide), show stringMatch k kXllCor = false from hno _ (by decide),
    show stringMatch k kYll = false from hno _ (by decide), show stringMatch k kYllCor = false from hno _ (by decide),
    show stringMatch k kCellsize = false from hno _ (by decide), show stringMatch k kNodata = false from hno _ (by decide)]
  simp

theorem ascTokens_append (cast : DVal → τ) (s : AscState τ) (a b : List Str) :
    ascTokens cast s (a ++ b) = (do
      match ← ascTokens cast s a with
      | .fail v => .ok (.fail v)
      | .go s' => ascTokens cast s' b) := by
  induction a generalizing s with
  | nil => rfl
  | cons t a ih =>
    simp only [List.cons_append, ascTokens]
    by_cases h : (isDouble t).2 = false
    · simp [h]
    · rw [if_neg h, if_neg h]
      cases mulInt s.rows s.cols with
      | ok n =>
        simp only [Out.ok_bind]
        split_ifs
        · rfl
        · cases writeAt s.vals s.vidx (cast (isDouble t).1) with
          | ok v => simp [ih]
          | ub => rfl
          | exn => rfl
      | ub => rfl
      | exn => rfl


theorem writeAt_isSome {p q : Ptr τ} {i : Int} {v : τ} (h : writeAt p i v = .ok q) : q.isSome = true := by
  cases p with
  | none => simp [writeAt] at h
  | some l =>
    simp only [writeAt] at h
    split_ifs at h
    injection h with h; rw [← h]; rfl

theorem ascTokens_isSome (cast : DVal → τ) {s s' : AscState τ} {ts : List Str} (hs : s.vals.isSome = true)
    (h : ascTokens cast s ts = .ok (.go s')) : s'.vals.isSome = true := by
  induction ts generalizing s with
  | nil => simp only [ascTokens] at h; injection h with h; injection h with h; rw [← h]; exact hs
  | cons t ts ih =>
    simp only [ascTokens] at h
    split_ifs at h
    · simp at h
    · obtain ⟨n, _, h⟩ := Out.bind_ok h
      split_ifs at h
      · simp at h
      obtain ⟨v, hv, h⟩ := Out.bind_ok h
      exact ih (s := { s with vals := v, vidx := s.vidx + 1 }) (writeAt_isSome hv) h

theorem dataLines_flatten (cast : DVal → τ) (ds : List (List Str)) (hd : ∀ ws ∈ ds, DataLine ws) (s : AscState τ)
    (hs : s.vals.isSome = true) : ascWords cast s ds = ascTokens cast s ds.flatten := by
  induction ds generalizing s with
  | nil => rfl
  | cons ws ds ih =>
    obtain ⟨l, hl⟩ := Option.isSome_iff_exists.1 hs
    have ha : ascAlloc cast s = .ok s := by unfold ascAlloc; rw [hl]
    simp only [ascWords, dataLine_step cast s (hd ws (by simp)), ha, Out.ok_bind, List.flatten_cons, ascTokens_append]
    cases h : ascTokens cast s ws with
    | ok f => cases f with
      | go s' =>
        simp only [Out.ok_bind]
        exact ih (fun w hw => hd w (by simp [hw])) s' (ascTokens_isSome cast hs h)
      | fail v => simp
    | ub => rfl
    | exn => rfl

/-- The texts of a list are all numbers. -/
def allNum (ts : List Str) : Prop := ∀ t ∈ ts, (isDouble t).2 = true

theorem ascTokens_accept (cast : DVal → τ) (n : Nat) (ts : List Str) (s : AscState τ) (l : List τ)
    (hm : mulInt s.rows s.cols = .ok (n : Int)) (hv : s.vals = some l) (hl : l.length = n) (hall : allNum ts)
    (hc : s.vidx + ts.length ≤ n) :
    ascTokens cast s ts = .ok (.go { s with
      vals := some (l.take s.vidx ++ ts.map (fun t => cast (isDouble t).1) ++ l.drop (s.vidx + ts.length))
      vidx := s.vidx + ts.length }) := by
  induction ts generalizing s l with
  | nil =>
    simp only [ascTokens, List.map_nil, List.append_nil, List.length_nil, Nat.add_zero, List.take_append_drop]
    rw [← hv]
  | cons t ts ih =>
    simp only [List.length_cons] at hc
    simp only [ascTokens]
    rw [if_neg (by simp [hall t (by simp)]), hm, Out.ok_bind, if_neg (by omega), hv,
      writeAt_some l (s.vidx : Int) _ (by omega) (by omega), Out.ok_bind, Int.toNat_natCast]
    rw [ih { s with vals := some (l.set s.vidx (cast (isDouble t).1)), vidx := s.vidx + 1 }
      (l.set s.vidx (cast (isDouble t).1)) hm rfl (by simp [hl]) (fun u hu => hall u (by simp [hu])) (by
        show s.vidx + 1 + ts.length ≤ n; omega)]
    have e1 : (l.set s.vidx (cast (isDouble t).1)).take (s.vidx + 1) = l.take s.vidx ++ [cast (isDouble t).1] := by
      apply List.ext_getElem?
      intro i
      rw [List.getElem?_take, List.getElem?_append, List.getElem?_set, List.getElem?_take]
      have hlt : (l.take s.vidx).length = s.vidx := by simp; omega
      rw [hlt]
      by_cases h1 : i < s.vidx
      · rw [if_pos (by omega), if_neg (by omega), if_pos h1, if_pos h1]
      · rw [if_neg h1]
        by_cases h2 : i = s.vidx
        · subst h2; simp; omega
        · rw [if_neg (by omega)]
          rw [List.getElem?_eq_none (by simp; omega)]
    have e2 : (l.set s.vidx (cast (isDouble t).1)).drop (s.vidx + (ts.length + 1)) = l.drop (s.vidx + (ts.length + 1)) :=
      List.drop_set_of_lt (by omega)
    have e3 : s.vidx + 1 + ts.length = s.vidx + (ts.length + 1) := by omega
    simp only [e3, e1, e2, List.map_cons, List.length_cons, List.append_assoc, List.cons_append,
      List.nil_append]

theorem ascTokens_reject (cast : DVal → τ) (n : Nat) (ts : List Str) (s : AscState τ)
    (hm : mulInt s.rows s.cols = .ok (n : Int)) (hv : ∀ _ : 0 < n, ∃ l, s.vals = some l ∧ l.length = n)
    (hi : s.vidx ≤ n) (hbad : ¬ (allNum ts ∧ s.vidx + ts.length ≤ n)) :
    ascTokens cast s ts = .ok (.fail none) := by
  induction ts generalizing s with
  | nil => exact absurd ⟨by intro t ht; simp at ht, by simpa using hi⟩ hbad
  | cons t ts ih =>
    simp only [ascTokens]
    by_cases ht : (isDouble t).2 = false
    · rw [if_pos ht]
    rw [if_neg ht, hm, Out.ok_bind]
    by_cases hx : (s.vidx : Int) = (n : Int)
    · rw [if_pos hx]
    rw [if_neg hx]
    obtain ⟨l, hl1, hl2⟩ := hv (by omega)
    rw [hl1, writeAt_some l (s.vidx : Int) _ (by omega) (by omega), Out.ok_bind, Int.toNat_natCast]
    refine ih { s with vals := some (l.set s.vidx (cast (isDouble t).1)), vidx := s.vidx + 1 } hm
      (fun _ => ⟨_, rfl, by simp [hl2]⟩) (by show s.vidx + 1 ≤ n; omega) ?_
    rintro ⟨h1, h2⟩
    have h2 : s.vidx + 1 + ts.length ≤ n := h2
    refine hbad ⟨?_, by simp; omega⟩
    intro u hu
    rcases List.mem_cons.1 hu with rfl | hu
    · simpa using ht
    · exact h1 u hu

theorem ascAlloc_null (cast : DVal → τ) (s : AscState τ) (n : Nat) (hm : mulInt s.rows s.cols = .ok (n : Int))
    (hv : s.vals = none) : ascAlloc cast s = .ok { s with vals := alloc1 n (cast s.noData) } := by
  unfold ascAlloc; rw [hv]; simp [hm]

theorem alloc1_pos {α : Type} (n : Nat) (v : α) (h : 0 < n) : alloc1 (n : Int) v = some (List.replicate n v) := by
  unfold alloc1; rw [if_neg (by omega), Int.toNat_natCast]

theorem dataLines_accept (cast : DVal → τ) (n : Nat) (ds : List (List Str)) (hd : ∀ ws ∈ ds, DataLine ws)
    (s : AscState τ) (hm : mulInt s.rows s.cols = .ok (n : Int)) (hv : s.vals = none) (hi : s.vidx = 0)
    (hne : ds ≠ []) (hall : allNum ds.flatten) (hc : ds.flatten.length ≤ n) :
    ascWords cast s ds = .ok (.go { s with
      vals := some (ds.flatten.map (fun t => cast (isDouble t).1) ++
        List.replicate (n - ds.flatten.length) (cast s.noData))
      vidx := ds.flatten.length }) := by
  cases ds with
  | nil => exact absurd rfl hne
  | cons ws ds =>
    have hpos : 0 < n := by
      obtain ⟨k, rest, rfl, _⟩ := hd ws (by simp)
      simp at hc; omega
    have e : ascWords cast s (ws :: ds) =
        ascWords cast { s with vals := alloc1 n (cast s.noData) } (ws :: ds) := by
      simp only [ascWords, dataLine_step cast _ (hd ws (by simp)), ascAlloc_null cast s n hm hv, Out.ok_bind]
      rw [alloc1_pos n _ hpos]
      simp only [ascAlloc, Out.ok_bind]
    rw [e, alloc1_pos n _ hpos, dataLines_flatten cast _ hd _ rfl,
      ascTokens_accept cast n _ { s with vals := some (List.replicate n (cast s.noData)) }
        (List.replicate n (cast s.noData)) hm rfl (by simp) hall (by
          show s.vidx + _ ≤ n; rw [hi]; omega)]
    simp [hi]

theorem dataLines_reject (cast : DVal → τ) (n : Nat) (ds : List (List Str)) (hd : ∀ ws ∈ ds, DataLine ws)
    (s : AscState τ) (hm : mulInt s.rows s.cols = .ok (n : Int)) (hv : s.vals = none) (hi : s.vidx = 0)
    (hbad : ¬ (allNum ds.flatten ∧ ds.flatten.length ≤ n)) : ascWords cast s ds = .ok (.fail none) := by
  cases ds with
  | nil => exact absurd ⟨by intro t ht; simp at ht, by simp⟩ hbad
  | cons ws ds =>
    by_cases hpos : 0 < n
    · have e : ascWords cast s (ws :: ds) =
          ascWords cast { s with vals := alloc1 n (cast s.noData) } (ws :: ds) := by
        simp only [ascWords, dataLine_step cast _ (hd ws (by simp)), ascAlloc_null cast s n hm hv, Out.ok_bind]
        rw [alloc1_pos n _ hpos]
        simp only [ascAlloc, Out.ok_bind]
      rw [e, alloc1_pos n _ hpos, dataLines_flatten cast _ hd _ rfl]
      exact ascTokens_reject cast n _ { s with vals := some (List.replicate n (cast s.noData)) } hm
        (fun _ => ⟨_, rfl, by simp⟩) (by show s.vidx ≤ n; omega) (by
          show ¬ (_ ∧ s.vidx + _ ≤ n); rw [hi, Nat.zero_add]; exact hbad)
    · have hn : n = 0 := by omega
      subst hn
      simp only [ascWords, dataLine_step cast _ (hd ws (by simp)), ascAlloc_null cast s 0 hm hv, Out.ok_bind]
      obtain ⟨k, rest, rfl, _⟩ := hd ws (by simp)
      rw [ascTokens_reject cast 0 _ { s with vals := alloc1 ((0 : Nat) : Int) (cast s.noData) } hm (fun h => absurd h (by omega))
        (by show s.vidx ≤ 0; omega) (by rintro ⟨_, h⟩; simp at h)]
      rfl


/-! ### No overrun when dimensions come first and never change -/

/-- Reader invariant: nothing stored yet, or a block of `n` values of which `vidx` are filled. -/
def AscInv (n : Nat) (s : AscState τ) : Prop :=
  mulInt s.rows s.cols = .ok (n : Int) ∧
    ((s.vals = none ∧ s.vidx = 0) ∨ (0 < n ∧ s.vidx ≤ n ∧ ∃ l, s.vals = some l ∧ l.length = n))

/-- A step is defined and keeps the invariant; a failing step has released or never owned too little. -/
def AscSafe (n : Nat) (o : Out (AscFlow τ)) : Prop :=
  ∃ f, o = .ok f ∧ ∀ s', f = .go s' → AscInv n s'

theorem ascTokens_safe (cast : DVal → τ) (n : Nat) (ts : List Str) (s : AscState τ) (h : AscInv n s) (h0 : n = 0 ∨ s.vals ≠ none) :
    AscSafe n (ascTokens cast s ts) := by
  obtain ⟨hm, hv⟩ := h
  by_cases hg : allNum ts ∧ s.vidx + ts.length ≤ n
  · rcases hv with ⟨hv, hi⟩ | ⟨hp, hi, l, hv, hl⟩
    · rcases h0 with h0 | h0
      · have : ts = [] := List.eq_nil_of_length_eq_zero (by omega)
        subst this
        exact ⟨_, rfl, fun s' hs => by injection hs with hs; subst hs; exact ⟨hm, Or.inl ⟨hv, hi⟩⟩⟩
      · exact absurd hv h0
    · refine ⟨_, ascTokens_accept cast n ts s l hm hv hl hg.1 hg.2, fun s' hs => ?_⟩
      injection hs with hs
      subst hs
      refine ⟨hm, Or.inr ⟨hp, hg.2, _, rfl, ?_⟩⟩
      simp; omega
  · refine ⟨_, ascTokens_reject cast n ts s hm ?_ ?_ hg, by simp⟩
    · intro hn
      rcases hv with ⟨hv, hi⟩ | ⟨hp, hi, l, hv, hl⟩
      · rcases h0 with h0 | h0
        · omega
        · exact absurd hv h0
      · exact ⟨l, hv, hl⟩
    · rcases hv with ⟨hv, hi⟩ | ⟨hp, hi, l, hv, hl⟩ <;> omega

theorem ascLine_safe (cast : DVal → τ) (n : Nat) (ws : List Str) (s : AscState τ) (h : AscInv n s) (hw : ¬ DimLine ws) :
    AscSafe n (ascLine cast s ws) := by
  cases ws with
  | nil => exact ⟨_, rfl, fun s' hs => by injection hs with hs; subst hs; exact h⟩
  | cons k rest =>
    have h1 : stringMatch k kNcols = false := by
      rw [Bool.eq_false_iff, ne_eq, stringMatch_iff]
      exact fun hk => hw ⟨k, rest, rfl, Or.inl hk⟩
    have h2 : stringMatch k kNrows = false := by
      rw [Bool.eq_false_iff, ne_eq, stringMatch_iff]
      exact fun hk => hw ⟨k, rest, rfl, Or.inr hk⟩
    have hdbl : ∀ (f : DVal → AscState τ) (o : Option DVal), (∀ v, AscInv n (f v)) →
        AscSafe n (match o with | some v => .ok (.go (f v)) | none => .ok (.fail s.vals) : Out (AscFlow τ)) := by
      intro f o hf
      cases o with
      | none => exact ⟨_, rfl, by simp⟩
      | some v => exact ⟨_, rfl, fun s' hs => by injection hs with hs; subst hs; exact hf v⟩
    simp only [ascLine, h1, h2, Bool.false_eq_true, if_false]
    split_ifs
    · exact hdbl (fun v => { s with xll := v, xcor := s.xcor || stringMatch k kXllCor }) _ (fun v => h)
    · exact hdbl (fun v => { s with yll := v, ycor := s.ycor || stringMatch k kYllCor }) _ (fun v => h)
    · exact hdbl (fun v => { s with cellsize := v }) _ (fun v => h)
    · exact hdbl (fun v => { s with noData := v }) _ (fun v => h)
    · rcases h.2 with ⟨hv, hi⟩ | ⟨hp, hi, l, hv, hl⟩
      · rw [ascAlloc_null cast s n h.1 hv, Out.ok_bind]
        by_cases hn : n = 0
        · subst hn
          exact ascTokens_safe cast 0 _ _ ⟨h.1, Or.inl ⟨rfl, hi⟩⟩ (Or.inl rfl)
        · rw [alloc1_pos n _ (by omega)]
          exact ascTokens_safe cast n _ _ ⟨h.1, Or.inr ⟨by omega, by show s.vidx ≤ n; omega, _, rfl, by simp⟩⟩ (Or.inr (by simp))
      · have ha : ascAlloc cast s = .ok s := by unfold ascAlloc; rw [hv]
        rw [ha, Out.ok_bind]
        exact ascTokens_safe cast n _ _ h (Or.inr (by simp [hv]))

theorem ascWords_safe (cast : DVal → τ) (n : Nat) (wss : List (List Str)) (s : AscState τ) (h : AscInv n s)
    (hw : ∀ ws ∈ wss, ¬ DimLine ws) : AscSafe n (ascWords cast s wss) := by
  induction wss generalizing s with
  | nil => exact ⟨_, rfl, fun s' hs => by injection hs with hs; subst hs; exact h⟩
  | cons ws wss ih =>
    obtain ⟨f, hf, hi⟩ := ascLine_safe cast n ws s h (hw ws (by simp))
    simp only [ascWords, hf, Out.ok_bind]
    cases f with
    | fail v => exact ⟨_, rfl, by simp⟩
    | go s' => exact ih s' (hi s' rfl) (fun w hw' => hw w (by simp [hw']))

end CCGL
