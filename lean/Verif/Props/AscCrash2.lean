import Verif.Props.AscCrash
/-!
# What a cut ASCII grid reads as (C86)
-/
namespace CCGL
open Spec
variable {τ : Type}

/-- The text of a plain grid: header, rows, an empty line. -/
theorem plainGrid_text {pr : τ → Str} {den : τ → ℚ} {h : Header} {vals : List τ} (hg : PlainGrid pr den h vals) :
    ∃ ds : List (List Str), ds.flatten = vals.map pr ∧ (∀ ws ∈ ds, ws ≠ []) ∧
      writeAsc pr h (some vals) = .ok (ascHeaderText h ++ ((ds.map pieces).flatMap (fun l => l ++ nl) ++ nl)) := by
  obtain ⟨rows, er⟩ := Int.eq_ofNat_of_zero_le hg.rows.le
  obtain ⟨c, ec⟩ := Int.eq_ofNat_of_zero_le hg.cols.le
  have hr1 : 0 < rows := by have := hg.rows; omega
  have hc1 : 0 < c := by have := hg.cols; omega
  have hlen : vals.length = rows * c := by have hl := hg.len; rw [er, ec] at hl; exact_mod_cast hl
  have hrow : ∀ ws ∈ (gridRows rows c vals).map (fun vs => vs.map pr), ws ≠ [] := by
    intro ws hws
    obtain ⟨vs, hvs, rfl⟩ := List.mem_map.1 hws
    unfold gridRows at hvs
    obtain ⟨i, hi, rfl⟩ := List.mem_map.1 hvs
    have hi := List.mem_range.1 hi
    have hle : i * c + c ≤ vals.length := by
      rw [hlen]; have : (i + 1) * c ≤ rows * c := Nat.mul_le_mul_right _ hi
      rw [Nat.add_mul, Nat.one_mul] at this; exact this
    intro h0
    have := congrArg List.length h0
    simp at this; omega
  refine ⟨(gridRows rows c vals).map (fun vs => vs.map pr), ?_, hrow, ?_⟩
  · rw [← List.map_flatten, gridRows_flatten rows c vals hlen]
  · rw [writeAsc_text pr h rows c er ec hc1 vals hlen]
    congr 1
    have e : ((gridRows rows c vals).map (fun vs => vs.map pr)).map pieces =
        ((gridRows rows c vals).map (fun vs => vs.map pr)).map (fun ws => join ' ' ws ++ [' ']) :=
      List.map_congr_left (fun ws hw => pieces_join ws (hrow ws hw))
    rw [e, ascHeaderText_lines, gridText, List.flatMap_append, List.flatMap_append]
    simp [nl]

theorem take_nums {pr : τ → Str} {den : τ → ℚ} (vals : List τ) (hp : ∀ v ∈ vals, Prints pr den v) :
    List.Forall₂ NumText (vals.map pr) (vals.map (fun v => DVal.fin (den v))) := by
  induction vals with
  | nil => exact .nil
  | cons v vs ih => exact .cons (hp v (by simp)).text (ih (fun u hu => hp u (by simp [hu])))

/-- C86, what every beginning of the file reads as. Let the text be the header followed by `body`, cut anywhere. Its
words are the printed values of the first `k` cells and perhaps a beginning `w` of the next one. Without any word the
file is rejected; so it is if `w` is no number; in every other case it is accepted with the full header, and the grid
has the values of the first `k` cells, then the number `w` if there is one, and NoData in all other cells. -/
theorem C86_cut_partial (pr : τ → Str) (den : τ → ℚ) (cast : DVal → τ) (h : Header) (vals : List τ) (hdr : AscHeader)
    (hg : PlainGrid pr den h vals) (text body : Str) (ht : writeAsc pr h (some vals) = .ok text)
    (hp : ascHeaderText h ++ body <+: text) :
    ∃ k w, CutWords (vals.map pr) body k w ∧
      (k = 0 → w = [] → readAsc cast (some (ascHeaderText h ++ body)) hdr none = .ok (false, hdr, none)) ∧
      (w ≠ [] → (¬ ∃ x, NumText w x) →
        readAsc cast (some (ascHeaderText h ++ body)) hdr none = .ok (false, hdr, none)) ∧
      (0 < k → w = [] → readAsc cast (some (ascHeaderText h ++ body)) hdr none = .ok (true, readHeader h gRound,
        some ((vals.take k).map (fun v => cast (.fin (den v))) ++
          List.replicate (vals.length - k) (cast (.fin (gRound h.noData)))))) ∧
      (∀ x, w ≠ [] → NumText w x → readAsc cast (some (ascHeaderText h ++ body)) hdr none = .ok (true, readHeader h gRound,
        some ((vals.take k).map (fun v => cast (.fin (den v))) ++ cast x ::
          List.replicate (vals.length - k - 1) (cast (.fin (gRound h.noData)))))) := by
  obtain ⟨ds, hflat, hdne, htext⟩ := plainGrid_text hg
  rw [ht] at htext
  injection htext with htext
  rw [htext, List.prefix_append_right_inj] at hp
  have hnum : ∀ u ∈ vals.map pr, NumWord u := by
    intro u hu
    obtain ⟨v, hv, rfl⟩ := List.mem_map.1 hu
    exact (hg.prints v hv).numWord
  have hrows : ∀ ws ∈ ds, ∀ u ∈ ws, NumWord u := fun ws hw u hu =>
    hnum u (by rw [← hflat]; exact List.mem_flatten.2 ⟨ws, hw, hu⟩)
  have hpos : 0 < vals.length := by
    have h1 := hg.len
    have : 0 < h.rows * h.cols := mul_pos hg.rows hg.cols
    omega
  have hrc : h.rows ≤ h.rows * h.cols ∧ h.cols ≤ h.rows * h.cols := by
    have := hg.rows; have := hg.cols
    constructor <;> nlinarith
  have hcells := hg.cells
  have hr0 := hg.rows
  have hc0 := hg.cols
  have hlen := hg.len
  have hi1 : Int32 h.rows := ⟨by omega, by omega⟩
  have hi2 : Int32 h.cols := ⟨by omega, by omega⟩
  rcases List.prefix_concat_iff.1 (show body <+: (ds.map pieces).flatMap (fun l => l ++ nl) ++ ['\n'] from hp) with rfl | hp
  · -- the complete file
    refine ⟨vals.length, [], ⟨by simp, by simp, ?_⟩, by omega, fun h0 => absurd rfl h0, ?_, fun x h0 => absurd rfl h0⟩
    · have h1 := rows_words ds hrows
      have := words_append h1.1 (IsWords.nil ['\n'] (by intro c hc; simp at hc; subst hc; unfold White; decide)) h1.2
      rw [hflat, List.append_nil] at this
      rw [List.take_of_length_le (by simp), if_pos rfl, List.append_nil]
      exact this
    · intro _ _
      obtain ⟨t, e1, e2⟩ := C08_roundtrip_general pr den cast h vals hdr hg.rows hg.cols hg.cells hg.len hg.cellsize
        hg.xll hg.yll hg.prints
      rw [ht] at e1
      injection e1 with e1
      rw [← e1, htext] at e2
      rw [show ascHeaderText h ++ ((ds.map pieces).flatMap (fun l => l ++ nl) ++ ['\n']) =
        ascHeaderText h ++ ((ds.map pieces).flatMap (fun l => l ++ nl) ++ nl) from rfl, e2]
      simp
  · -- cut within the rows
    obtain ⟨i, j, w, hi, hj, hw, rfl⟩ := rows_cut ds body hp
    obtain ⟨k, hk, hkt, hkd⟩ := flatten_cut ([] : Str) ds i j hi
    rw [hflat] at hk hkt hkd
    rw [List.length_map] at hk
    have hwk : w <+: (vals.map pr).getD k [] := by
      by_cases hjl : j < (ds.getD i []).length
      · rw [hkd hjl]; exact hw
      · rw [List.getD_eq_default _ _ (by omega)] at hw
        have : w = [] := by simpa using hw
        subst this; simp
    have hwn : w ≠ [] → k < vals.length ∧ NumWord w := by
      intro hw0
      by_cases hkl : k < vals.length
      · refine ⟨hkl, (hnum ((vals.map pr).getD k []) ?_).cut hw0 hwk⟩
        rw [List.getD_eq_getElem _ _ (by simpa using hkl)]
        exact List.getElem_mem _
      · rw [List.getD_eq_default _ _ (by simp; omega)] at hwk
        exact absurd (by simpa using hwk) hw0
    generalize hlast : (ds.getD i []).take j = last at hkt
    have hlastm : ∀ u ∈ last, NumWord u := by
      intro u hu
      have : u ∈ (vals.map pr).take k := by rw [← hkt]; exact List.mem_append_right _ hu
      exact hnum u (List.mem_of_mem_take this)
    have hlw : ∀ u ∈ lastWords last w, NumWord u := by
      intro u hu
      rcases List.mem_append.1 hu with hu | hu
      · exact hlastm u hu
      · by_cases h0 : w = []
        · rw [if_pos h0] at hu; simp at hu
        · rw [if_neg h0] at hu; simp at hu; subst hu; exact (hwn h0).2
    have htake : ∀ ws ∈ ds.take i, ws ≠ [] ∧ ∀ u ∈ ws, NumWord u := fun ws hws =>
      ⟨hdne ws (List.mem_of_mem_take hws), hrows ws (List.mem_of_mem_take hws)⟩
    have htxt : ascHeaderText h ++ (((ds.take i).map pieces).flatMap (fun l => l ++ nl) ++ (pieces last ++ w)) =
        cutText (headWords h) (ds.take i) last w := by
      rw [cutText, List.flatMap_append, ← ascHeaderText_lines, List.append_assoc]
    rw [htxt]
    obtain ⟨hw1, hv1⟩ := cutText_words (headWords h) (ds.take i) last w (headWords_good h)
      (fun ws hws => (numWords_good (htake ws hws).1 (htake ws hws).2).1)
      (fun h0 => (numWords_good h0 hlw).1) (by
        intro c hc
        rcases List.mem_append.1 hc with hc | hc
        · obtain ⟨u, hu, hc⟩ := List.mem_flatMap.1 hc
          rcases List.mem_append.1 hc with hc | hc
          · have := (hlastm u hu).2.1 c hc; omega
          · simp at hc; subst hc; decide
        · by_cases h0 : w = []
          · subst h0; simp at hc
          · have := (hwn h0).2.2.1 c hc; omega)
    rw [List.append_assoc] at hw1
    generalize hD : ds.take i ++ (if lastWords last w = [] then [] else [lastWords last w]) = D at hw1
    have hDf : D.flatten = (vals.take k).map pr ++ if w = [] then [] else [w] := by
      rw [← hD, List.flatten_append, lastWords_flatten, lastWords, ← List.append_assoc, hkt, List.map_take]
    have hDm : ∀ ws ∈ D, ws ≠ [] ∧ ∀ u ∈ ws, NumWord u := by
      intro ws hws
      rw [← hD] at hws
      rcases List.mem_append.1 hws with hws | hws
      · exact htake ws hws
      · by_cases h0 : lastWords last w = []
        · rw [if_pos h0] at hws; simp at hws
        · rw [if_neg h0] at hws; simp at hws; subst hws; exact ⟨h0, hlw⟩
    have hDne : ¬ (k = 0 ∧ w = []) → D ≠ [] := by
      intro h0 h1
      rw [h1] at hDf
      simp only [List.flatten_nil] at hDf
      have h2 := List.append_eq_nil_iff.1 hDf.symm
      apply h0
      constructor
      · have := congrArg List.length h2.1
        simp at this
        rcases this with this | this
        · exact this
        · subst this; simp at hpos
      · by_contra h3; have := h2.2; rw [if_neg h3] at this; simp at this
    have h7 : ¬ (k = 0 ∧ w = []) → 7 ≤ (headWords h ++ D).length := by
      intro h0
      have h1 := List.length_pos_iff.2 (hDne h0)
      have : (headWords h).length = 6 := rfl
      rw [List.length_append, this]; omega
    have hDd : ∀ ws ∈ D, DataLine ws := fun ws hws => (numWords_good (hDm ws hws).1 (hDm ws hws).2).2
    have hnums := take_nums (vals.take k) (fun v hv => hg.prints v (List.mem_of_mem_take hv))
    have hcs : (DVal.fin (gRound h.cellsize)).isNeg = false := by
      simp only [DVal.isNeg, decide_eq_false_iff_not, not_lt]; exact gRound_nonneg _ hg.cellsize
    refine ⟨k, w, ⟨by simpa using hk, hwk, ?_⟩, ?_, ?_, ?_, ?_⟩
    · have h1 := rows_words (ds.take i) (fun ws hws => (htake ws hws).2)
      have h2 := words_pieces last w (fun u hu => ⟨(hlastm u hu).1, (hlastm u hu).notWhite⟩) (by
        by_cases h0 : w = []
        · subst h0; simp
        · exact (hwn h0).2.notWhite)
      have := words_append h1.1 h2 h1.2
      rw [← List.append_assoc (ds.take i).flatten, hkt] at this
      exact this
    · intro hk0 hw0
      have hD0 : D = [] := by
        cases D with
        | nil => rfl
        | cons a D =>
          exfalso
          rw [hk0, hw0] at hDf
          simp at hDf
          exact (hDm a (by simp)).1 hDf.1
      obtain ⟨out, ho, hf⟩ := hw1
      have hlo := hf.length_eq
      rw [hD0] at hlo
      exact C09_short cast _ out ho (by rw [hlo]; simp [headWords]) hdr none
    · intro hw0 hbad
      exact C09_reject cast _ (headWords h) D _ h.rows h.cols hdr hw1 hv1 (h7 (fun h0 => hw0 h0.2))
        (headWords_head h hi1 hi2) hDd rfl rfl (by omega) hcells (Or.inl ⟨w, by
          rw [hDf, if_neg hw0]; simp, hbad⟩)
    · intro hk0 hw0
      have := C09_accept cast _ (headWords h) D _ h.rows h.cols _ _ _ _ hdr hw1 hv1 (h7 (fun h0 => by omega))
        (headWords_head h hi1 hi2) hDd (hDne (fun h0 => by omega))
        rfl rfl hr0.le hc0.le hcells rfl rfl rfl (gRound_not_missing _ hg.xll) (gRound_not_missing _ hg.yll) hcs
        (by rw [hDf, if_pos hw0, List.append_nil]; exact hnums) (by
          rw [List.length_map, List.length_take]; omega)
      rw [this]
      congr 3
      rw [List.map_map, List.length_map, List.length_take]
      have e : (h.rows * h.cols).toNat - min k vals.length = vals.length - k := by omega
      rw [e]
      rfl
    · intro x hw0 hx
      have hkl := (hwn hw0).1
      have := C09_accept cast _ (headWords h) D _ h.rows h.cols _ _ _
        ((vals.take k).map (fun v => DVal.fin (den v)) ++ [x]) hdr hw1 hv1 (h7 (fun h0 => hw0 h0.2))
        (headWords_head h hi1 hi2) hDd (hDne (fun h0 => hw0 h0.2))
        rfl rfl hr0.le hc0.le hcells rfl rfl rfl (gRound_not_missing _ hg.xll) (gRound_not_missing _ hg.yll) hcs
        (by rw [hDf, if_neg hw0]; exact List.rel_append hnums (.cons hx .nil)) (by
          rw [List.length_append, List.length_map, List.length_take, List.length_singleton]; omega)
      rw [this]
      congr 3
      rw [List.map_append, List.map_map, List.length_append, List.length_map, List.length_take, List.length_singleton]
      have e : (h.rows * h.cols).toNat - (min k vals.length + 1) = vals.length - k - 1 := by omega
      rw [e, List.append_assoc]
      rfl

/-- Every beginning of the file is a beginning of the header or goes beyond it. -/
theorem prefix_or (a b p : Str) (h : p <+: a ++ b) : p <+: a ∨ ∃ q, p = a ++ q := by
  by_cases hl : p.length ≤ a.length
  · exact Or.inl (List.prefix_of_prefix_length_le h (List.prefix_append _ _) hl)
  · obtain ⟨q, hq⟩ := List.prefix_of_prefix_length_le (List.prefix_append a b) h (by omega)
    exact Or.inr ⟨q, hq.symm⟩

theorem header_prefix {pr : τ → Str} {den : τ → ℚ} {h : Header} {vals : List τ} (hg : PlainGrid pr den h vals)
    {text p : Str} (ht : writeAsc pr h (some vals) = .ok text) (hp : p <+: text) :
    p <+: ascHeaderText h ∨ ∃ body, p = ascHeaderText h ++ body := by
  obtain ⟨ds, _, _, h3⟩ := plainGrid_text hg
  rw [ht] at h3
  injection h3 with h3
  rw [h3] at hp
  exact prefix_or _ _ _ hp

/-- C86: whatever a crash leaves (other than the old file), reading it is defined. -/
theorem C86_safe (pr : τ → Str) (den : τ → ℚ) (cast : DVal → τ) (h : Header) (vals : List τ) (hdr : AscHeader)
    (hg : PlainGrid pr den h vals) (old g : Option Str) (ops : List AscOp) (ho : ascOps pr h (some vals) = .ok ops)
    (hl : Leaves ops old g) (hne : g ≠ old) : ∃ r, readAsc cast g hdr none = .ok r := by
  obtain ⟨ds, _, _, ht⟩ := plainGrid_text hg
  obtain ⟨ops', h1, _, h3⟩ := C86_states pr h (some vals) _ old ht
  rw [ho] at h1
  injection h1 with h1
  subst h1
  rcases (h3 g).1 hl with h0 | rfl | ⟨p, hp, rfl⟩
  · exact absurd h0 hne
  · exact ⟨_, C09_nofile cast hdr none⟩
  · rcases header_prefix hg ht hp with hp' | ⟨body, rfl⟩
    · exact ⟨_, C86_header cast h p hp' hdr none⟩
    · obtain ⟨k, w, _, c1, c2, c3, c4⟩ := C86_cut_partial pr den cast h vals hdr hg _ body ht hp
      by_cases hw : w = []
      · rcases Nat.eq_zero_or_pos k with hk | hk
        · exact ⟨_, c1 hk hw⟩
        · exact ⟨_, c3 hk hw⟩
      · by_cases hx : ∃ x, NumText w x
        · obtain ⟨x, hx⟩ := hx; exact ⟨_, c4 x hw hx⟩
        · exact ⟨_, c2 hw hx⟩

/-- C86, what may be trusted in an accepted file that a crash left: its header is complete, and there is a cell before
which every value is right and after which every value is NoData; the value of that cell itself is NoData, right, or
denoted by a beginning of its text. (Missing: that only complete files are accepted, see the counterexamples.) -/
theorem C86_accepted_partial (pr : τ → Str) (den : τ → ℚ) (cast : DVal → τ) (h : Header) (vals : List τ)
    (hdr hd : AscHeader) (v : Ptr τ) (hg : PlainGrid pr den h vals) (old g : Option Str) (ops : List AscOp)
    (ho : ascOps pr h (some vals) = .ok ops) (hl : Leaves ops old g) (hne : g ≠ old)
    (hread : readAsc cast g hdr none = .ok (true, hd, v)) :
    hd = readHeader h gRound ∧ ∃ out k, v = some out ∧ out.length = vals.length ∧
      (∀ i a, i < k → vals[i]? = some a → out[i]? = some (cast (.fin (den a)))) ∧
      (∀ i, k < i → i < vals.length → out[i]? = some (cast (.fin (gRound h.noData)))) ∧
      (∀ a, vals[k]? = some a → out[k]? = some (cast (.fin (gRound h.noData))) ∨
        ∃ w x, w ≠ [] ∧ w <+: pr a ∧ NumText w x ∧ out[k]? = some (cast x)) := by
  obtain ⟨ds, _, _, ht⟩ := plainGrid_text hg
  obtain ⟨ops', h1, _, h3⟩ := C86_states pr h (some vals) _ old ht
  rw [ho] at h1
  injection h1 with h1
  subst h1
  rcases (h3 g).1 hl with h0 | rfl | ⟨p, hp, rfl⟩
  · exact absurd h0 hne
  · rw [C09_nofile] at hread; cases hread
  · rcases header_prefix hg ht hp with hp' | ⟨body, rfl⟩
    · rw [C86_header cast h p hp' hdr none] at hread; cases hread
    · obtain ⟨k, w, ⟨hk, hwk, _⟩, c1, c2, c3, c4⟩ := C86_cut_partial pr den cast h vals hdr hg _ body ht hp
      rw [List.length_map] at hk
      have hnone : ¬ (k = 0 ∧ w = []) := by
        rintro ⟨h1, h2⟩; rw [c1 h1 h2] at hread; cases hread
      by_cases hw : w = []
      · have hk0 : 0 < k := by
          rcases Nat.eq_zero_or_pos k with h0 | h0
          · exact absurd ⟨h0, hw⟩ hnone
          · exact h0
        rw [c3 hk0 hw] at hread
        injection hread with hread
        obtain ⟨-, h2⟩ := Prod.mk.inj hread
        obtain ⟨h2, h3⟩ := Prod.mk.inj h2
        refine ⟨h2.symm, _, k, h3.symm, ?_, ?_, ?_, ?_⟩
        · simp; omega
        · intro i a hi ha
          rw [List.getElem?_append_left (by simp; omega), List.getElem?_map, List.getElem?_take, if_pos hi, ha]; rfl
        · intro i hi hil
          rw [List.getElem?_append_right (by simp; omega), List.getElem?_replicate, if_pos (by simp; omega)]
        · intro a ha
          have hkl : k < vals.length := by
            by_contra h0; rw [List.getElem?_eq_none (by omega)] at ha; cases ha
          left
          rw [List.getElem?_append_right (by simp), List.getElem?_replicate, if_pos (by simp; omega)]
      · have hx : ∃ x, NumText w x := by
          by_contra h0; rw [c2 hw h0] at hread; cases hread
        obtain ⟨x, hx⟩ := hx
        have hkl : k < vals.length := by
          by_contra h0
          rw [List.getD_eq_default _ _ (by simp; omega)] at hwk
          exact hw (by simpa using hwk)
        rw [c4 x hw hx] at hread
        injection hread with hread
        obtain ⟨-, h2⟩ := Prod.mk.inj hread
        obtain ⟨h2, h3⟩ := Prod.mk.inj h2
        have e1 : ((vals.take k).map (fun v => cast (.fin (den v)))).length = k := by simp; omega
        refine ⟨h2.symm, _, k, h3.symm, ?_, ?_, ?_, ?_⟩
        · simp; omega
        · intro i a hi ha
          rw [List.getElem?_append_left (by omega), List.getElem?_map, List.getElem?_take, if_pos hi, ha]; rfl
        · intro i hi hil
          rw [List.getElem?_append_right (by omega), e1, List.getElem?_cons, if_neg (by omega), List.getElem?_replicate,
            if_pos (by omega)]
        · intro a ha
          right
          refine ⟨w, x, hw, ?_, hx, ?_⟩
          · rw [List.getD_eq_getElem?_getD, List.getElem?_map, ha] at hwk
            exact hwk
          · rw [List.getElem?_append_right (by omega), e1, Nat.sub_self]; rfl

/-! ### What a crash can do -/

theorem flatten_at {α : Type} : ∀ (ds : List (List α)) (k : Nat), k ≤ ds.flatten.length → ∃ i j, i ≤ ds.length ∧
    (ds.take i).flatten ++ (ds.getD i []).take j = ds.flatten.take k := by
  intro ds
  induction ds with
  | nil => intro k _; exact ⟨0, 0, by simp, by simp⟩
  | cons r ds ih =>
    intro k hk
    rw [List.flatten_cons] at hk ⊢
    by_cases h : k ≤ r.length
    · exact ⟨0, k, by simp, by simp [List.take_append_of_le_length h]⟩
    · obtain ⟨i, j, h1, h2⟩ := ih (k - r.length) (by simp at hk ⊢; omega)
      refine ⟨i + 1, j, by simpa using h1, ?_⟩
      have e : k = r.length + (k - r.length) := by omega
      rw [e, List.take_length_add_append, ← h2]
      simp

theorem cut_prefix (ds : List (List Str)) (i j : Nat) (hi : i ≤ ds.length) :
    ((ds.take i).map pieces).flatMap (fun l => l ++ nl) ++ pieces ((ds.getD i []).take j) <+:
      (ds.map pieces).flatMap (fun l => l ++ nl) := by
  induction ds generalizing i with
  | nil => simp [pieces]
  | cons r ds ih =>
    cases i with
    | zero =>
      simp only [List.take_zero, List.map_nil, List.flatMap_nil, List.nil_append, List.getD_cons_zero, List.map_cons,
        List.flatMap_cons]
      have h1 : pieces (r.take j) <+: pieces r := by
        refine ⟨pieces (r.drop j), ?_⟩
        unfold pieces
        rw [← List.flatMap_append, List.take_append_drop]
      exact (h1.trans (List.prefix_append _ _)).trans (List.prefix_append _ _)
    | succ i =>
      have := ih i (by simpa using hi)
      simp only [List.take_succ_cons, List.map_cons, List.flatMap_cons, List.getD_cons_succ, List.append_assoc]
      rw [List.prefix_append_right_inj, List.prefix_append_right_inj]
      exact this

/-- C86 is false of the code: for every grid with at least two cells and every number of cells `k` from 1 to one less
than all, a crash can leave a file that the reader accepts although all cells from `k` on were never written; they
read as NoData. -/
theorem C86_false_truncated (pr : τ → Str) (den : τ → ℚ) (cast : DVal → τ) (h : Header) (vals : List τ) (hdr : AscHeader)
    (hg : PlainGrid pr den h vals) (old : Option Str) (k : Nat) (hk : 0 < k) (hkn : k < vals.length) :
    ∃ ops g, ascOps pr h (some vals) = .ok ops ∧ Leaves ops old g ∧
      readAsc cast g hdr none = .ok (true, readHeader h gRound,
        some ((vals.take k).map (fun v => cast (.fin (den v))) ++
          List.replicate (vals.length - k) (cast (.fin (gRound h.noData))))) := by
  obtain ⟨ds, hflat, hdne, ht⟩ := plainGrid_text hg
  obtain ⟨ops, h1, _, h3⟩ := C86_states pr h (some vals) _ old ht
  obtain ⟨i, j, hi, hij⟩ := flatten_at ds k (by rw [hflat]; simp; omega)
  have hp := cut_prefix ds i j hi
  generalize hb : ((ds.take i).map pieces).flatMap (fun l => l ++ nl) ++ pieces ((ds.getD i []).take j) = body at hp
  have hp' : ascHeaderText h ++ body <+: ascHeaderText h ++ ((ds.map pieces).flatMap (fun l => l ++ nl) ++ nl) := by
    rw [List.prefix_append_right_inj]; exact hp.trans (List.prefix_append _ _)
  refine ⟨ops, _, h1, (h3 _).2 (Or.inr (Or.inr ⟨_, hp', rfl⟩)), ?_⟩
  obtain ⟨k', w, ⟨hk', hw', hwords⟩, _, _, c3, c4⟩ := C86_cut_partial pr den cast h vals hdr hg _ body ht hp'
  -- the words of this text are the first k printed values
  have hnum : ∀ ws ∈ ds, ∀ u ∈ ws, NumWord u := fun ws hw u hu => by
    have : u ∈ vals.map pr := by rw [← hflat]; exact List.mem_flatten.2 ⟨ws, hw, hu⟩
    obtain ⟨v, hv, rfl⟩ := List.mem_map.1 this
    exact (hg.prints v hv).numWord
  have hmine : IsWords body ((vals.map pr).take k) := by
    have a1 := rows_words (ds.take i) (fun ws hws => hnum ws (List.mem_of_mem_take hws))
    have a2 := words_pieces ((ds.getD i []).take j) [] (by
      intro u hu
      have hm : u ∈ (vals.map pr) := by
        have : u ∈ ds.flatten.take k := by rw [← hij]; exact List.mem_append_right _ hu
        rw [hflat] at this
        exact List.mem_of_mem_take this
      obtain ⟨v, hv, rfl⟩ := List.mem_map.1 hm
      exact ⟨(hg.prints v hv).numWord.1, (hg.prints v hv).numWord.notWhite⟩) (by simp)
    simp only [List.append_nil, if_true] at a2
    have := words_append a1.1 a2 a1.2
    rw [hij, hflat] at this
    rw [← hb]
    exact this
  have huniq := isWords_unique hmine hwords
  have hlen := congrArg List.length huniq
  simp only [List.length_append, List.length_take, List.length_map] at hlen hk'
  by_cases hw : w = []
  · have hkk : k' = k := by
      rw [if_pos hw] at hlen; simp at hlen; omega
    subst hkk
    exact c3 hk hw
  · rw [if_neg hw] at hlen huniq
    simp only [List.length_singleton] at hlen
    have hkk : k = k' + 1 := by omega
    subst hkk
    have hkl : k' < vals.length := by omega
    have hwv : w = pr vals[k'] := by
      have := congrArg (fun l => l[k']?) huniq
      rw [List.getElem?_take, if_pos (by omega), List.getElem?_append_right (by simp), List.getElem?_map,
        List.getElem?_eq_getElem hkl] at this
      have e : k' - (List.take k' (List.map pr vals)).length = 0 := by simp; omega
      rw [e] at this
      simp at this
      exact this.symm
    rw [c4 (.fin (den vals[k'])) hw (by rw [hwv]; exact (hg.prints _ (List.getElem_mem hkl)).text)]
    congr 4
    rw [List.take_succ_eq_append_getElem hkl, List.map_append, List.append_assoc, Nat.sub_sub]
    rfl

/-- C86 is false of the code also for a number cut in the middle: writing 7 and 125 and stopping after `12` leaves a
file that is accepted and gives 7 and 12. -/
theorem C86_false_number : ∃ ops g, ascOps intToDec ⟨1, 2, 1, 0, 0, -9999, 1, 2⟩ (some [7, 125]) = .ok ops ∧
    Leaves ops none g ∧
    readAsc id g hdr0 none = .ok (true, ⟨1, 2, .fin 0, .fin 0, .fin 1, .fin (-9999), 1, 2⟩, some [.fin 7, .fin 12]) := by
  have ht : ∃ text, writeAsc intToDec ⟨1, 2, 1, 0, 0, -9999, 1, 2⟩ (some [7, 125]) = .ok text ∧
      "NCOLS 2\nNROWS 1\nXLLCENTER 0\nYLLCENTER 0\nCELLSIZE 1\nNODATA_VALUE -9999\n7 12".toList <+: text :=
    ⟨"NCOLS 2\nNROWS 1\nXLLCENTER 0\nYLLCENTER 0\nCELLSIZE 1\nNODATA_VALUE -9999\n7 125 \n\n".toList,
      by decide +kernel, by decide +kernel⟩
  obtain ⟨text, h1, h2⟩ := ht
  obtain ⟨ops, h3, _, h5⟩ := C86_states _ _ _ _ none h1
  exact ⟨ops, _, h3, (h5 _).2 (Or.inr (Or.inr ⟨_, h2, rfl⟩)), by decide +kernel⟩

/-- The hypotheses of the theorems above are met: the 2x2 grid of C08. -/
example : PlainGrid fmtG gRound exHeader [1, -1 / 2, 1234.5, -9999] where
  rows := by decide
  cols := by decide
  cells := by decide
  len := by decide
  cellsize := by norm_num [exHeader]
  xll := by norm_num [exHeader]
  yll := by norm_num [exHeader]
  prints := fun v _ => fmtG_prints v

end CCGL
