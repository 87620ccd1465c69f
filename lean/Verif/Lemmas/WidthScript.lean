import Verif.Spec.WidthFile
/-! Lemmas about the lines that scripts/parseEastAsianWidth.sh reads. -/
namespace KT
open Spec

theorem process_next (st : WidthState) (a b : Str) :
    st.process a b = match st.prev with
      | some (s, e) =>
        if oneBigger a e then { st with prev := some (s, b) }
        else { prev := some (a, b), blocks := st.blocks ++ [(s, e)] }
      | none => { st with prev := some (a, b) } := by
  obtain ⟨prev, blocks⟩ := st
  unfold WidthState.process
  by_cases h : a = b
  · subst h; cases prev <;> simp
  · cases prev <;> simp [h]

theorem shWordsLoop_word (s : Str) (x w : Str) (hx : ∀ b ∈ x, isShBlank b = false) :
    shWordsLoop (x ++ s) w = shWordsLoop s (w ++ x) := by
  induction x generalizing w with
  | nil => simp
  | cons b x ih =>
    have hb := hx b (by simp)
    rw [List.cons_append, shWordsLoop, hb]
    simp only [Bool.false_eq_true, if_false]
    rw [ih _ (fun c hc => hx c (by simp [hc]))]
    simp

theorem shWordsLoop_blanks (s : Str) (x : Str) (hx : ∀ b ∈ x, isShBlank b = true) :
    shWordsLoop (x ++ s) [] = shWordsLoop s [] := by
  induction x with
  | nil => simp
  | cons b x ih =>
    have hb := hx b (by simp)
    rw [List.cons_append, shWordsLoop, hb]
    simp only [if_true]
    exact ih (fun c hc => hx c (by simp [hc]))

/-- The first word keeps what was read before. -/
theorem shWordsLoop_head (s w : Str) (hw : w ≠ []) : ∃ x ws, shWordsLoop s w = (w ++ x) :: ws := by
  induction s generalizing w with
  | nil => exact ⟨[], [], by simp [shWordsLoop, hw]⟩
  | cons b s ih =>
    unfold shWordsLoop
    by_cases hb : isShBlank b = true
    · rw [if_pos hb, if_neg hw]; exact ⟨[], _, by simp; rfl⟩
    · rw [if_neg hb]
      obtain ⟨x, ws, h⟩ := ih (w ++ [b]) (by simp)
      exact ⟨b :: x, ws, by rw [h]; simp⟩

theorem shWords_word (x : Str) (hx : ∀ b ∈ x, isShBlank b = false) (hn : x ≠ []) : shWords x = [x] := by
  have := shWordsLoop_word [] x [] hx
  rw [List.append_nil, List.nil_append] at this
  rw [shWords, this, shWordsLoop, if_neg hn]

/-- The words of a remark: none, or the first one begins a comment. -/
theorem shWords_remark (s : Str) (h : Remark s) :
    shWords s = [] ∨ ∃ t ws, shWords s = (0x23 :: t) :: ws := by
  obtain ⟨-, blanks, c, rfl, hb, hc⟩ := h
  have hb' : ∀ b ∈ blanks, isShBlank b = true := by
    intro b hm; rcases hb b hm with rfl | rfl <;> decide
  rw [shWords, shWordsLoop_blanks _ _ hb']
  rcases hc with rfl | ⟨t, rfl⟩
  · left; simp [shWordsLoop]
  · right
    rw [shWordsLoop, if_neg (by decide)]
    obtain ⟨x, ws, h⟩ := shWordsLoop_head t ([] ++ [0x23]) (by simp)
    exact ⟨x, ws, by rw [h]; simp⟩

theorem takeWhile_stop (x y : Str) (c : UInt8) (hx : c ∉ x) :
    (x ++ c :: y).takeWhile (· != c) = x := by
  rw [List.takeWhile_append_of_pos]
  · simp
  · intro a ha; simp; rintro rfl; exact hx ha

theorem takeWhile_whole (x : Str) (c : UInt8) (hx : c ∉ x) : x.takeWhile (· != c) = x := by
  have := @List.takeWhile_append_of_pos _ (· != c) x [] (by intro a ha; simp; rintro rfl; exact hx ha)
  simpa using this

/-- A remark is left out. -/
theorem withoutComment_remark (s : Str) (h : Remark s) : withoutComment s = [] := by
  rcases shWords_remark s h with e | ⟨t, ws, e⟩
  · simp [withoutComment, e, List.intercalate]
  · cases ws <;> simp [withoutComment, e, List.intercalate]

/-- What is left of an entry. -/
theorem withoutComment_entry (x s : Str) (hx : ∀ b ∈ x, isShBlank b = false) (hc : 0x23 ∉ x)
    (hn : x ≠ []) (h : Remark s) :
    withoutComment (x ++ s) = x ∨ withoutComment (x ++ s) = x ++ [0x20] := by
  have hh := h
  obtain ⟨hnl, blanks, c, rfl, hb, hcc⟩ := h
  cases blanks with
  | nil =>
    left
    rcases hcc with rfl | ⟨t, rfl⟩
    · have e : shWords (x ++ ([] ++ [])) = [x] := by simpa using shWords_word x hx hn
      rw [withoutComment, e]
      simpa [List.intercalate] using takeWhile_whole x 0x23 hc
    · have e : ∃ y ws, shWords (x ++ ([] ++ 0x23 :: t)) = (x ++ 0x23 :: y) :: ws := by
        rw [shWords, List.nil_append, shWordsLoop_word _ _ _ hx, shWordsLoop, if_neg (by decide)]
        obtain ⟨y, ws, h⟩ := shWordsLoop_head t ([] ++ x ++ [0x23]) (by simp)
        exact ⟨y, ws, by rw [h]; simp⟩
      obtain ⟨y, ws, e⟩ := e
      rw [withoutComment, e]
      cases ws with
      | nil => simpa [List.intercalate] using takeWhile_stop x y 0x23 hc
      | cons w ws =>
        have : ∀ z : Str, ((x ++ 0x23 :: y) ++ z).takeWhile (· != 0x23) = x := by
          intro z; rw [List.append_assoc, List.cons_append]; exact takeWhile_stop x _ 0x23 hc
        simpa [List.intercalate] using this _
  | cons b0 blanks =>
    have hb0 : isShBlank b0 = true := by
      rcases hb b0 (by simp) with rfl | rfl <;> decide
    have hr : Remark (blanks ++ c) :=
      ⟨fun hm => hnl (by simpa using Or.inr (by simpa using hm)), blanks, c, rfl,
        fun b hm => hb b (by simp [hm]), hcc⟩
    have e : shWords (x ++ (b0 :: blanks ++ c)) = x :: shWords (blanks ++ c) := by
      rw [shWords, shWordsLoop_word _ _ _ hx, List.cons_append, shWordsLoop, if_pos hb0,
        if_neg (by simpa using hn)]
      simp [shWords]
    rcases shWords_remark _ hr with e' | ⟨t, ws, e'⟩
    · left
      rw [withoutComment, e, e']
      simpa [List.intercalate] using takeWhile_whole x 0x23 hc
    · right
      rw [withoutComment, e, e']
      have hs : (0x23 : UInt8) ∉ x ++ [0x20] := by simpa using hc
      cases ws with
      | nil =>
        have := takeWhile_stop (x ++ [0x20]) t 0x23 hs
        simpa [List.intercalate] using this
      | cons w ws =>
        have : ∀ z : Str, (x ++ 0x20 :: 0x23 :: z).takeWhile (· != 0x23) = x ++ [0x20] := by
          intro z
          have := takeWhile_stop (x ++ [0x20]) z 0x23 hs
          simpa using this
        simpa [List.intercalate] using this _

theorem hasWideClass_prefix (x y : Str) (h : 0x3b ∉ x) : hasWideClass (x ++ y) = hasWideClass y := by
  induction x with
  | nil => rfl
  | cons b x ih =>
    have hb : b ≠ 0x3b := by rintro rfl; simp at h
    have ih := ih (fun hm => h (by simp [hm]))
    rw [← ih]
    cases hxy : x ++ y with
    | nil => simp [hxy, hasWideClass]
    | cons c z => simp [hxy, hasWideClass, hb]

theorem beforeLast_stop (x y : Str) (c : UInt8) (hy : c ∉ y) : beforeLast c (x ++ c :: y) = x := by
  have e : (x ++ c :: y).reverse.dropWhile (· != c) = c :: x.reverse := by
    rw [List.reverse_append, List.reverse_cons, List.append_assoc]
    rw [List.dropWhile_append_of_pos]
    · simp
    · intro a ha; simp at ha; simp; rintro rfl; exact hy ha
  rw [beforeLast, if_pos (by simp), e]
  simp

theorem afterLast_stop (x y : Str) (c : UInt8) (hy : c ∉ y) : afterLast c (x ++ c :: y) = y := by
  have e := takeWhile_stop y.reverse x.reverse c (by simpa using hy)
  rw [afterLast, List.reverse_append, List.reverse_cons, List.append_assoc]
  simp only [List.singleton_append]
  rw [e, List.reverse_reverse]

theorem afterLast_whole (y : Str) (c : UInt8) (hy : c ∉ y) : afterLast c y = y := by
  rw [afterLast, takeWhile_whole _ _ (by simpa using hy), List.reverse_reverse]

theorem hexChar_not (b : UInt8) (h : isHexChar b = true) :
    isShBlank b = false ∧ b ≠ 0x23 ∧ b ≠ 0x3b ∧ b ≠ 0x2e ∧ b ≠ 0x0a := by
  refine ⟨?_, ?_, ?_, ?_, ?_⟩
  · cases hb : isShBlank b
    · rfl
    · simp [isShBlank] at hb
      rcases hb with rfl | rfl <;> revert h <;> decide
  all_goals (rintro rfl; revert h; decide)

theorem widthCode_hex (s : Str) (h : WidthCode s) : isShHex s = true := by
  obtain ⟨h1, h2, h3⟩ := h
  have : s ≠ [] := by rintro rfl; simp at h1
  simp [isShHex, this, List.all_eq_true]
  exact ⟨h3, by omega⟩

theorem widthCode_words (s : Str) (h : WidthCode s) : shWords s = [s] :=
  shWords_word s (fun b hb => (hexChar_not b (h.2.2 b hb)).1) (by rintro rfl; have := h.1; simp at this)

theorem widthCode_notMem (s : Str) (h : WidthCode s) :
    (0x23 : UInt8) ∉ s ∧ (0x3b : UInt8) ∉ s ∧ (0x2e : UInt8) ∉ s ∧ (0x0a : UInt8) ∉ s :=
  ⟨fun m => (hexChar_not _ (h.2.2 _ m)).2.1 rfl, fun m => (hexChar_not _ (h.2.2 _ m)).2.2.1 rfl,
   fun m => (hexChar_not _ (h.2.2 _ m)).2.2.2.1 rfl, fun m => (hexChar_not _ (h.2.2 _ m)).2.2.2.2 rfl⟩

/-- The part of an entry before the class. -/
def entryCodes (start : Str) : Option Str → Str
  | none => start
  | some e => start ++ u8!".." ++ e

theorem entryCodes_parts (start : Str) (stop : Option Str) (hs : WidthCode start)
    (he : ∀ e, stop = some e → WidthCode e) :
    beforeFirst 0x2e (entryCodes start stop) = start ∧
    afterLast 0x2e (entryCodes start stop) = stop.getD start := by
  have h := widthCode_notMem start hs
  cases stop with
  | none => exact ⟨takeWhile_whole _ _ h.2.2.1, afterLast_whole _ _ h.2.2.1⟩
  | some e =>
    have h' := widthCode_notMem e (he e rfl)
    have e1 : entryCodes start (some e) = start ++ 0x2e :: (0x2e :: e) := by
      simp only [entryCodes, List.append_assoc]; rfl
    have e2 : entryCodes start (some e) = (start ++ [0x2e]) ++ 0x2e :: e := by
      rw [e1]; simp
    refine ⟨?_, ?_⟩
    · rw [e1, beforeFirst, takeWhile_stop _ _ _ h.2.2.1]
    · rw [e2, afterLast_stop _ _ _ h'.2.2.1]; rfl

theorem entryCodes_notMem (start : Str) (stop : Option Str) (hs : WidthCode start)
    (he : ∀ e, stop = some e → WidthCode e) :
    (∀ b ∈ entryCodes start stop, isShBlank b = false) ∧ 0x23 ∉ entryCodes start stop ∧
    0x3b ∉ entryCodes start stop ∧ 0x0a ∉ entryCodes start stop := by
  have h := widthCode_notMem start hs
  have hb : ∀ b ∈ start, isShBlank b = false := fun b m => (hexChar_not b (hs.2.2 b m)).1
  cases stop with
  | none => exact ⟨hb, h.1, h.2.1, h.2.2.2⟩
  | some e =>
    have h' := widthCode_notMem e (he e rfl)
    have hb' : ∀ b ∈ e, isShBlank b = false := fun b m => (hexChar_not b ((he e rfl).2.2 b m)).1
    have e1 : entryCodes start (some e) = start ++ 0x2e :: (0x2e :: e) := by
      simp only [entryCodes, List.append_assoc]; rfl
    rw [e1]
    refine ⟨?_, ?_, ?_, ?_⟩
    · intro b m
      simp at m
      rcases m with m | rfl | m
      · exact hb b m
      · decide
      · exact hb' b m
    · simp [h.1, h'.1]
    · simp [h.2.1, h'.2.1]
    · simp [h.2.2.2, h'.2.2.2]

/-- The line of an entry, without its newline. -/
theorem entry_text (start : Str) (stop : Option Str) (cls rest : Str) :
    (WidthLine.entry start stop cls rest).text =
      (entryCodes start stop ++ 0x3b :: cls ++ rest) ++ [0x0a] := by
  have e1 : (u8!";") = [0x3b] := by decide
  have e2 : (u8!"\n") = [0x0a] := by decide
  cases stop <;> simp [WidthLine.text, entryCodes, e1, e2]

theorem classes_facts : ∀ cls ∈ [u8!"N", u8!"A", u8!"H", u8!"W", u8!"F", u8!"Na"],
    (cls.all fun b => !isShBlank b && b != 0x23 && b != 0x3b && b != 0x0a) = true ∧
    hasWideClass (0x3b :: cls) = (decide (cls = u8!"F" ∨ cls = u8!"W")) ∧
    hasWideClass (0x3b :: (cls ++ [0x20])) = (decide (cls = u8!"F" ∨ cls = u8!"W")) := by
  decide

/-- One entry. -/
theorem line_entry (st : WidthState) (start : Str) (stop : Option Str) (cls rest : Str)
    (h : (WidthLine.entry start stop cls rest).Fits) :
    st.line (entryCodes start stop ++ 0x3b :: cls ++ rest) =
      .ok (if cls = u8!"F" ∨ cls = u8!"W" then st.process start (stop.getD start) else st) := by
  obtain ⟨hs, he, hcls, hrest⟩ := h
  have he' : ∀ e, stop = some e → WidthCode e := fun e h => (he e h).1
  obtain ⟨hfb, hf1, hf2⟩ := classes_facts cls hcls
  have hfb' : ∀ b ∈ cls, isShBlank b = false ∧ b ≠ 0x23 ∧ b ≠ 0x3b ∧ b ≠ 0x0a := by
    intro b m
    have := List.all_eq_true.mp hfb b m
    simp at this
    exact ⟨this.1.1.1, this.1.1.2, this.1.2, this.2⟩
  obtain ⟨n1, n2, n3, n4⟩ := entryCodes_notMem start stop hs he'
  have hx : ∀ b ∈ entryCodes start stop ++ 0x3b :: cls, isShBlank b = false := by
    intro b m
    simp at m
    rcases m with m | rfl | m
    · exact n1 b m
    · decide
    · exact (hfb' b m).1
  have hc : 0x23 ∉ entryCodes start stop ++ 0x3b :: cls := by
    simp [n2]; intro m; exact (hfb' _ m).2.1 rfl
  obtain ⟨p1, p2⟩ := entryCodes_parts start stop hs he'
  have key : ∀ t : Str, 0x3b ∉ t → hasWideClass (0x3b :: (cls ++ t)) = decide (cls = u8!"F" ∨ cls = u8!"W") →
      withoutComment (entryCodes start stop ++ 0x3b :: cls ++ rest) =
        entryCodes start stop ++ 0x3b :: (cls ++ t) →
      st.line (entryCodes start stop ++ 0x3b :: cls ++ rest) =
      .ok (if cls = u8!"F" ∨ cls = u8!"W" then st.process start (stop.getD start) else st) := by
    intro t ht hw e
    have hsc : 0x3b ∉ cls ++ t := by
      simp [ht]; intro m; exact (hfb' _ m).2.2.1 rfl
    unfold WidthState.line
    rw [e]
    dsimp only
    rw [hasWideClass_prefix _ _ n3, hw, beforeLast_stop _ _ _ hsc, p1, p2, widthCode_words _ hs]
    have hd : WidthCode (stop.getD start) := by
      cases stop with
      | none => exact hs
      | some e' => exact he' e' rfl
    rw [widthCode_words _ hd]
    by_cases hF : cls = u8!"F" ∨ cls = u8!"W"
    · rw [if_pos ⟨by simp, by simpa using hF⟩, if_pos hF]
      simp [widthCode_hex _ hs, widthCode_hex _ hd]
    · rw [if_neg (by simp [hF]), if_neg hF]
  rcases withoutComment_entry _ rest hx hc (by simp) hrest with e | e
  · exact key [] (by simp) (by simpa using hf1) (by simpa using e)
  · exact key [0x20] (by simp) hf2 (by simpa using e)

theorem line_other (st : WidthState) (t : Str) (h : Remark t) : st.line t = .ok st := by
  simp [WidthState.line, withoutComment_remark t h]

theorem shLines_line (l s w : Str) (h : 0x0a ∉ l) :
    shLines (l ++ 0x0a :: s) w = (w ++ l) :: shLines s [] := by
  induction l generalizing w with
  | nil => simp [shLines]
  | cons b l ih =>
    have hb : b ≠ 0x0a := by rintro rfl; simp at h
    rw [List.cons_append, shLines]
    simp only [beq_iff_eq, hb, if_false]
    rw [ih _ (fun m => h (by simp [m]))]
    simp

theorem shLines_rest (l w : Str) (h : 0x0a ∉ l) : shLines l w = [] := by
  induction l generalizing w with
  | nil => simp [shLines]
  | cons b l ih =>
    have hb : b ≠ 0x0a := by rintro rfl; simp at h
    rw [shLines]
    simp only [beq_iff_eq, hb, if_false]
    exact ih _ (fun m => h (by simp [m]))

def processRows : List (Str × Str) → WidthState → WidthState
  | [], st => st
  | r :: rs, st => processRows rs (st.process r.1 r.2)

theorem lines_text (ls : List WidthLine) (h : ∀ l ∈ ls, l.Fits) (tail : Str) (ht : 0x0a ∉ tail)
    (st : WidthState) :
    WidthState.lines (shLines (widthText ls ++ tail) []) st =
      .ok (processRows (ls.filterMap wideCodes) st) := by
  induction ls generalizing st with
  | nil => simp [widthText, shLines_rest _ _ ht, WidthState.lines, processRows]
  | cons l ls ih =>
    have ih := ih (fun l' m => h l' (by simp [m]))
    have hl := h l (by simp)
    have e : ∀ x : Str, l.text = x ++ [0x0a] → 0x0a ∉ x →
        shLines (widthText (l :: ls) ++ tail) [] = x :: shLines (widthText ls ++ tail) [] := by
      intro x e hx
      have : widthText (l :: ls) ++ tail = x ++ 0x0a :: (widthText ls ++ tail) := by
        simp [widthText, e]
      rw [this, shLines_line _ _ _ hx]; simp
    cases l with
    | entry start stop cls rest =>
      obtain ⟨hs, he, hcls, hrest⟩ := hl
      have hl := h _ List.mem_cons_self
      have n := entryCodes_notMem start stop hs (fun e h => (he e h).1)
      have hfb := (classes_facts cls hcls).1
      have hnl : 0x0a ∉ entryCodes start stop ++ 0x3b :: cls ++ rest := by
        have : (0x0a : UInt8) ∉ cls := by
          intro m
          have := List.all_eq_true.mp hfb _ m
          simp at this
        simp [n.2.2.2, hrest.1, this]
      rw [e _ (entry_text start stop cls rest) hnl, WidthState.lines, line_entry _ _ _ _ _ hl]
      show WidthState.lines _ _ = _
      rw [ih]
      by_cases hF : cls = u8!"F" ∨ cls = u8!"W"
      · simp [wideCodes, hF, processRows]
      · simp [wideCodes, hF]
    | other t =>
      rw [e t rfl hl.1, WidthState.lines, line_other _ _ hl]
      show WidthState.lines _ _ = _
      rw [ih, List.filterMap_cons_none (by rfl)]

end KT
