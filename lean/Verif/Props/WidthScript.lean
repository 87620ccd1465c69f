import Verif.Lemmas.WidthScript
/-! C192: the table of wide characters printed by scripts/parseEastAsianWidth.sh. -/
namespace KT
open Spec

/-- The codes of the blocks and of the range not yet stored. -/
def stateBlocks (st : WidthState) : List Block :=
  st.blocks.map printedBlock ++ st.prev.toList.map printedBlock

def StateSound (st : WidthState) : Prop := ∀ b ∈ stateBlocks st, b.start ≤ b.stop

theorem oneBigger_iff (a b : Str) : oneBigger a b = true ↔ hexValue a = hexValue b + 1 := by
  simp [oneBigger]; omega

theorem covers_append (as bs : List Block) (c : Nat) :
    Covers (as ++ bs) c ↔ Covers as c ∨ Covers bs c := by
  simp [Covers, or_and_right, exists_or]

theorem covers_cons (a : Block) (bs : List Block) (c : Nat) :
    Covers (a :: bs) c ↔ (a.start ≤ c ∧ c ≤ a.stop) ∨ Covers bs c := by
  simp [Covers]

theorem covers_nil (c : Nat) : ¬ Covers [] c := by simp [Covers]

theorem process_sound (st : WidthState) (a b : Str) (hs : StateSound st)
    (hab : hexValue a ≤ hexValue b) :
    StateSound (st.process a b) ∧
    ∀ c, Covers (stateBlocks (st.process a b)) c ↔
      Covers (stateBlocks st) c ∨ (hexValue a ≤ c ∧ c ≤ hexValue b) := by
  obtain ⟨prev, blocks⟩ := st
  rw [process_next]
  cases prev with
  | none =>
    refine ⟨?_, ?_⟩
    · intro x hx
      simp [stateBlocks] at hx
      rcases hx with ⟨p, q, hm, rfl⟩ | rfl
      · exact hs _ (by simp [stateBlocks]; exact ⟨p, q, hm, rfl⟩)
      · exact hab
    · intro c; simp [stateBlocks, covers_append, covers_cons, covers_nil, printedBlock]
  | some p =>
    obtain ⟨s, e⟩ := p
    have hse : hexValue s ≤ hexValue e := hs ⟨hexValue s, hexValue e⟩ (by simp [stateBlocks, printedBlock])
    dsimp only
    by_cases h1 : oneBigger a e = true
    · rw [if_pos h1]
      have h1 := (oneBigger_iff a e).mp h1
      refine ⟨?_, ?_⟩
      · intro x hx
        simp [stateBlocks] at hx
        rcases hx with ⟨p, q, hm, rfl⟩ | rfl
        · exact hs _ (by simp [stateBlocks]; exact Or.inl ⟨p, q, hm, rfl⟩)
        · simp [printedBlock]; omega
      · intro c
        simp only [stateBlocks, covers_append, Option.toList_some, List.map_cons, List.map_nil,
          covers_cons, covers_nil, or_false, printedBlock, or_assoc]
        refine or_congr Iff.rfl ?_
        omega
    · rw [if_neg h1]
      refine ⟨?_, ?_⟩
      · intro x hx
        simp [stateBlocks] at hx
        rcases hx with ⟨p, q, hm, rfl⟩ | rfl | rfl
        · exact hs _ (by simp [stateBlocks]; exact Or.inl ⟨p, q, hm, rfl⟩)
        · exact hse
        · exact hab
      · intro c
        simp [stateBlocks, covers_append, covers_cons, covers_nil, printedBlock, or_assoc]

theorem processRows_sound (rs : List (Str × Str)) (hr : ∀ r ∈ rs, hexValue r.1 ≤ hexValue r.2)
    (st : WidthState) (hs : StateSound st) :
    StateSound (processRows rs st) ∧
    ∀ c, Covers (stateBlocks (processRows rs st)) c ↔
      Covers (stateBlocks st) c ∨ Covers (rs.map printedBlock) c := by
  induction rs generalizing st with
  | nil => exact ⟨hs, fun c => by simp [processRows, covers_nil]⟩
  | cons r rs ih =>
    obtain ⟨h1, h2⟩ := process_sound st r.1 r.2 hs (hr r (by simp))
    obtain ⟨h3, h4⟩ := ih (fun x m => hr x (by simp [m])) _ h1
    refine ⟨h3, fun c => ?_⟩
    rw [processRows, h4, h2]
    simp [covers_cons, printedBlock, or_assoc]

theorem finish_blocks (st : WidthState) (hs : StateSound st) :
    st.finish.blocks.map printedBlock = stateBlocks st := by
  obtain ⟨prev, blocks⟩ := st
  cases prev with
  | none => simp [WidthState.finish, stateBlocks]
  | some p =>
    obtain ⟨s, e⟩ := p
    have hse : hexValue s ≤ hexValue e := hs ⟨hexValue s, hexValue e⟩ (by simp [stateBlocks, printedBlock])
    have h1 : ¬ oneBigger s e = true := by rw [oneBigger_iff]; omega
    simp only [WidthState.finish]
    rw [process_next]
    simp [h1, stateBlocks]

/-- The rows of the lines, as strings and as blocks. -/
theorem rows_blocks (ls : List WidthLine) : (ls.filterMap wideCodes).map printedBlock = wideRows ls := by
  rw [wideRows, List.map_filterMap]
  congr 1
  funext l
  cases l with
  | entry start stop cls rest =>
    by_cases h : cls = u8!"F" ∨ cls = u8!"W"
    · simp [wideCodes, WidthLine.wide, h, printedBlock]
    · simp [wideCodes, WidthLine.wide, h]
  | other t => rfl

theorem rows_sound (ls : List WidthLine) (h : ∀ l ∈ ls, l.Fits) :
    ∀ r ∈ ls.filterMap wideCodes, hexValue r.1 ≤ hexValue r.2 := by
  intro r hr
  obtain ⟨l, hl, e⟩ := List.mem_filterMap.mp hr
  cases l with
  | entry start stop cls rest =>
    have hf := h _ hl
    by_cases hF : cls = u8!"F" ∨ cls = u8!"W"
    · simp [wideCodes, hF] at e
      subst e
      cases stop with
      | none => exact Nat.le_refl _
      | some s => exact (hf.2.1 s rfl).2
    · simp [wideCodes, hF] at e
  | other t => simp [wideCodes] at e

theorem emptyState_sound : StateSound {} := by intro b hb; simp [stateBlocks] at hb

theorem widthBlocks_eq (ls : List WidthLine) (h : ∀ l ∈ ls, l.Fits) (tail : Str) (ht : 0x0a ∉ tail) :
    widthBlocks (widthText ls ++ tail) = .ok (processRows (ls.filterMap wideCodes) {}).finish.blocks := by
  rw [widthBlocks, lines_text ls h tail ht]; rfl

/-- The printed blocks contain exactly the codes that the entries of the file give as full or wide,
whatever the order of the entries.  The text after the last newline is not read. -/
theorem C192_codes (ls : List WidthLine) (h : ∀ l ∈ ls, l.Fits) (tail : Str) (ht : 0x0a ∉ tail) :
    ∃ bs, widthBlocks (widthText ls ++ tail) = .ok bs ∧
      ∀ c, Covers (bs.map printedBlock) c ↔ Covers (wideRows ls) c := by
  refine ⟨_, widthBlocks_eq ls h tail ht, fun c => ?_⟩
  obtain ⟨h1, h2⟩ := processRows_sound _ (rows_sound ls h) {} emptyState_sound
  rw [finish_blocks _ h1, h2, rows_blocks]
  simp [stateBlocks, covers_nil]

/-- The invariant for entries in ascending order: the blocks are apart and below the next entry. -/
theorem processRows_apart (rs : List (Str × Str)) (st : WidthState)
    (hr : ∀ r ∈ rs, hexValue r.1 ≤ hexValue r.2) (ha : Ascending (rs.map printedBlock))
    (hn : st.prev = none → st.blocks = [])
    (hs : Apart (stateBlocks st)) (hb : ∀ b ∈ stateBlocks st, ∀ r ∈ rs, b.stop < hexValue r.1) :
    Apart (stateBlocks (processRows rs st)) := by
  induction rs generalizing st with
  | nil => exact hs
  | cons r rs ih =>
    obtain ⟨a, b⟩ := r
    have hab : hexValue a ≤ hexValue b := hr (a, b) (by simp)
    have ha' := ha
    simp only [Ascending, List.map_cons, List.pairwise_cons] at ha'
    obtain ⟨hfirst, hrest⟩ := ha'
    have hfirst' : ∀ r ∈ rs, hexValue b < hexValue r.1 := fun r m =>
      hfirst (printedBlock r) (List.mem_map_of_mem m)
    rw [processRows]
    have hsound : StateSound (st.process a b) := (process_sound st a b hs.1 hab).1
    have hrs : ∀ r ∈ rs, hexValue r.1 ≤ hexValue r.2 := fun x m => hr x (by simp [m])
    obtain ⟨prev, blocks⟩ := st
    cases prev with
    | none =>
      have hn := hn rfl
      subst hn
      rw [process_next] at hsound ⊢
      refine ih _ hrs hrest (by simp) ⟨hsound, by simp [stateBlocks]⟩ ?_
      intro x hx r hm
      simp [stateBlocks] at hx
      subst hx
      exact hfirst' r hm
    | some p =>
      obtain ⟨s, e⟩ := p
      have hse : hexValue s ≤ hexValue e := hs.1 ⟨hexValue s, hexValue e⟩ (by simp [stateBlocks, printedBlock])
      have hea : hexValue e < hexValue a := hb ⟨hexValue s, hexValue e⟩ (by simp [stateBlocks, printedBlock]) (a, b) (by simp)
      have hp := hs.2
      simp only [stateBlocks, Option.toList_some, List.map_cons, List.map_nil, List.pairwise_append] at hp
      obtain ⟨hp1, -, hp2⟩ := hp
      have hp2 : ∀ x ∈ blocks.map printedBlock, x.stop + 1 < hexValue s := fun x m =>
        hp2 x m (printedBlock (s, e)) (by simp)
      rw [process_next] at hsound ⊢
      dsimp only at hsound ⊢
      by_cases h1 : oneBigger a e = true
      · rw [if_pos h1] at hsound ⊢
        refine ih _ hrs hrest (by simp) ⟨hsound, ?_⟩ ?_
        · simp only [stateBlocks, Option.toList_some, List.map_cons, List.map_nil, List.pairwise_append]
          refine ⟨hp1, by simp, ?_⟩
          intro x hx y hy
          rw [List.mem_singleton] at hy
          subst hy
          exact hp2 x hx
        · intro x hx r hm
          simp only [stateBlocks, Option.toList_some, List.map_cons, List.map_nil, List.mem_append,
            List.mem_singleton] at hx
          have := hfirst' r hm
          rcases hx with hx | rfl
          · have := hp2 x hx; omega
          · exact this
      · rw [if_neg h1] at hsound ⊢
        have h1' : hexValue a ≠ hexValue e + 1 := fun h => h1 ((oneBigger_iff a e).mpr h)
        refine ih _ hrs hrest (by simp) ⟨hsound, ?_⟩ ?_
        · simp only [stateBlocks, Option.toList_some, List.map_cons, List.map_nil, List.pairwise_append,
            List.map_append]
          refine ⟨⟨hp1, by simp, ?_⟩, by simp, ?_⟩
          · intro x hx y hy
            rw [List.mem_singleton] at hy
            subst hy
            exact hp2 x hx
          · intro x hx y hy
            rw [List.mem_singleton] at hy
            subst hy
            rw [List.mem_append, List.mem_singleton] at hx
            rcases hx with hx | rfl
            · have := hp2 x hx; simp only [printedBlock]; omega
            · simp only [printedBlock]; omega
        · intro x hx r hm
          simp only [stateBlocks, Option.toList_some, List.map_cons, List.map_nil, List.mem_append,
            List.mem_singleton, List.map_append] at hx
          have := hfirst' r hm
          rcases hx with (hx | rfl) | rfl
          · have := hp2 x hx; omega
          · simp only [printedBlock]; omega
          · exact this

/-- For entries in ascending order the printed blocks are in ascending order too, and between a
block and the next at least one code is missing: adjacent entries are always joined. -/
theorem C192_apart (ls : List WidthLine) (h : ∀ l ∈ ls, l.Fits) (ha : Ascending (wideRows ls))
    (tail : Str) (ht : 0x0a ∉ tail) :
    ∃ bs, widthBlocks (widthText ls ++ tail) = .ok bs ∧ Apart (bs.map printedBlock) := by
  refine ⟨_, widthBlocks_eq ls h tail ht, ?_⟩
  obtain ⟨h1, -⟩ := processRows_sound _ (rows_sound ls h) {} emptyState_sound
  rw [finish_blocks _ h1]
  exact processRows_apart _ {} (rows_sound ls h) (by rw [rows_blocks]; exact ha) (fun _ => rfl)
    (by simp [Apart, stateBlocks]) (by simp [stateBlocks])

/-- The first block of a list of blocks that are apart, by the codes alone. -/
theorem apart_head (a : Block) (as : List Block) (h : Apart (a :: as)) :
    (∀ c, Covers (a :: as) c → a.start ≤ c) ∧ ¬ Covers (a :: as) (a.stop + 1) ∧
    (∀ c, Covers as c ↔ Covers (a :: as) c ∧ a.stop < c) := by
  obtain ⟨h1, h2⟩ := h
  rw [List.pairwise_cons] at h2
  have ha := h1 a (by simp)
  have hlow : ∀ c, Covers as c → a.stop + 1 < c := by
    rintro c ⟨b, m, hb, -⟩
    have := h2.1 b m
    omega
  refine ⟨?_, ?_, ?_⟩
  · intro c hc
    rw [covers_cons] at hc
    rcases hc with hc | hc
    · exact hc.1
    · have := hlow c hc; omega
  · rw [covers_cons]
    rintro (hc | hc)
    · omega
    · have := hlow _ hc; omega
  · intro c
    rw [covers_cons]
    constructor
    · intro hc; exact ⟨Or.inr hc, by have := hlow c hc; omega⟩
    · rintro ⟨hc | hc, hlt⟩
      · omega
      · exact hc

/-- Blocks that are apart are determined by their codes. -/
theorem apart_unique (as bs : List Block) (ha : Apart as) (hb : Apart bs)
    (h : ∀ c, Covers as c ↔ Covers bs c) : as = bs := by
  induction as generalizing bs with
  | nil =>
    cases bs with
    | nil => rfl
    | cons b bs =>
      exact absurd ((h b.start).mpr ⟨b, by simp, Nat.le_refl _, hb.1 b (by simp)⟩) (covers_nil _)
  | cons a as ih =>
    cases bs with
    | nil => exact absurd ((h a.start).mp ⟨a, by simp, Nat.le_refl _, ha.1 a (by simp)⟩) (covers_nil _)
    | cons b bs =>
      obtain ⟨a1, a2, a3⟩ := apart_head a as ha
      obtain ⟨b1, b2, b3⟩ := apart_head b bs hb
      have hla := ha.1 a (by simp)
      have hlb := hb.1 b (by simp)
      have hab : a.start = b.start := by
        have x := a1 b.start ((h _).mpr ⟨b, by simp, Nat.le_refl _, hlb⟩)
        have y := b1 a.start ((h _).mp ⟨a, by simp, Nat.le_refl _, hla⟩)
        omega
      have hse : a.stop = b.stop := by
        have x : ¬ a.stop + 1 ≤ b.stop := fun hle =>
          a2 ((h _).mpr ⟨b, by simp, by omega, hle⟩)
        have y : ¬ b.stop + 1 ≤ a.stop := fun hle =>
          b2 ((h _).mp ⟨a, by simp, by omega, hle⟩)
        omega
      have e : a = b := by
        cases a; cases b; simp at hab hse; simp [hab, hse]
      subst e
      rw [ih bs ⟨fun x m => ha.1 x (by simp [m]), (List.pairwise_cons.mp ha.2).2⟩
        ⟨fun x m => hb.1 x (by simp [m]), (List.pairwise_cons.mp hb.2).2⟩
        (fun c => by rw [a3, b3, h])]

theorem inRange_covers (bs : List Block) (h : Apart bs) (c : Nat) : inRange c bs = true ↔ Covers bs c := by
  induction bs with
  | nil => simp [inRange, covers_nil]
  | cons a as ih =>
    have ih := ih ⟨fun x m => h.1 x (by simp [m]), (List.pairwise_cons.mp h.2).2⟩
    obtain ⟨h1, h2, h3⟩ := apart_head a as h
    rw [inRange, covers_cons]
    by_cases hc : c < a.start
    · rw [if_pos hc]
      simp only [Bool.false_eq_true, false_iff]
      intro hh
      have := h1 c ((covers_cons _ _ _).mpr hh)
      omega
    · rw [if_neg hc]
      by_cases hd : a.contains c = true
      · rw [if_pos hd]
        simp [Block.contains] at hd
        simp [hd]
      · rw [if_neg hd, ih]
        simp [Block.contains] at hd
        constructor
        · exact Or.inr
        · rintro (hh | hh)
          · omega
          · exact hh

theorem wideBlocks_apart : Apart wideBlocks := by
  unfold Apart; decide +kernel

/-- The table in DisplaySize.h is the one result for its codes: for any file in ascending order whose
full and wide entries have the codes of `WideBlocks`, however they are divided into entries, the
script prints exactly these blocks. -/
theorem C192_table (ls : List WidthLine) (h : ∀ l ∈ ls, l.Fits) (ha : Ascending (wideRows ls))
    (hc : ∀ c, Covers (wideRows ls) c ↔ inRange c wideBlocks = true) (tail : Str) (ht : 0x0a ∉ tail) :
    ∃ bs, widthBlocks (widthText ls ++ tail) = .ok bs ∧ bs.map printedBlock = wideBlocks := by
  obtain ⟨bs, e1, h1⟩ := C192_codes ls h tail ht
  obtain ⟨bs', e2, h2⟩ := C192_apart ls h ha tail ht
  rw [e1] at e2
  cases e2
  refine ⟨bs, e1, apart_unique _ _ h2 wideBlocks_apart fun c => ?_⟩
  rw [h1, hc, inRange_covers _ wideBlocks_apart]

theorem widthPrintLoop_eq (bs : List (Str × Str)) (hb : bs ≠ []) :
    widthPrintLoop bs bs.length =
      (u8!",\n").intercalate (bs.map fun b => u8!"  makeBlock" ++ Spec.blockCode b) ++ u8!"\n" := by
  induction bs with
  | nil => exact absurd rfl hb
  | cons b bs ih =>
    cases bs with
    | nil => simp [widthPrintLoop, List.intercalate, widthBlockText, Spec.blockCode]
    | cons b' bs =>
      have ih := ih (by simp)
      rw [widthPrintLoop]
      have e : (b :: b' :: bs).length - 1 = (b' :: bs).length := rfl
      rw [e, ih, if_neg (by simp)]
      simp [List.intercalate, widthBlockText, Spec.blockCode]

/-- Starts and ends of the blocks are those of entries. -/
def FromRows (rs : List (Str × Str)) (st : WidthState) : Prop :=
  (∀ b ∈ st.blocks, b.1 ∈ rs.map Prod.fst ∧ b.2 ∈ rs.map Prod.snd) ∧
  (∀ b, st.prev = some b → b.1 ∈ rs.map Prod.fst ∧ b.2 ∈ rs.map Prod.snd)

theorem process_from (rs : List (Str × Str)) (st : WidthState) (a b : Str) (h : FromRows rs st)
    (ha : a ∈ rs.map Prod.fst) (hb : b ∈ rs.map Prod.snd) : FromRows rs (st.process a b) := by
  obtain ⟨prev, blocks⟩ := st
  rw [process_next]
  cases prev with
  | none => exact ⟨h.1, by rintro x ⟨⟩; exact ⟨ha, hb⟩⟩
  | some p =>
    obtain ⟨s, e⟩ := p
    have hp := h.2 (s, e) rfl
    dsimp only
    by_cases h1 : oneBigger a e = true
    · rw [if_pos h1]
      exact ⟨h.1, by rintro x ⟨⟩; exact ⟨hp.1, hb⟩⟩
    · rw [if_neg h1]
      refine ⟨?_, by rintro x ⟨⟩; exact ⟨ha, hb⟩⟩
      intro x hx
      rw [List.mem_append, List.mem_singleton] at hx
      rcases hx with hx | rfl
      · exact h.1 x hx
      · exact hp

theorem processRows_from (all rs : List (Str × Str)) (hsub : ∀ r ∈ rs, r ∈ all) (st : WidthState)
    (h : FromRows all st) : FromRows all (processRows rs st) := by
  induction rs generalizing st with
  | nil => exact h
  | cons r rs ih =>
    have hr := hsub r (by simp)
    exact ih (fun x m => hsub x (by simp [m])) _
      (process_from all st r.1 r.2 h (List.mem_map_of_mem hr) (List.mem_map_of_mem hr))

theorem finish_from (rs : List (Str × Str)) (st : WidthState) (h : FromRows rs st) :
    FromRows rs st.finish := by
  unfold WidthState.finish
  cases hp : st.prev with
  | none => exact h
  | some p => exact process_from rs st p.1 p.2 h (h.2 p hp).1 (h.2 p hp).2

/-- The output: C++ text with one line for each block, in which the numbers are spelled as in the
entries of the file; exit status 0.  Without a file there is a message and the exit status is 1. -/
theorem C192_text (ls : List WidthLine) (h : ∀ l ∈ ls, l.Fits) (tail : Str) (ht : 0x0a ∉ tail) :
    (∃ bs, widthBlocks (widthText ls ++ tail) = .ok bs ∧
      widthScript (some (widthText ls ++ tail)) = .ok (Spec.widthTable bs, 0) ∧
      (∀ b ∈ bs, (∃ l ∈ ls, ∃ e, wideCodes l = some (b.1, e)) ∧ (∃ l ∈ ls, ∃ s, wideCodes l = some (s, b.2)))) ∧
    widthScript none = .ok (u8!"please specify 'EastAsiaWidth.txt' file to parse\n", 1) := by
  refine ⟨⟨_, widthBlocks_eq ls h tail ht, ?_, ?_⟩, rfl⟩
  · rw [widthScript, widthBlocks_eq ls h tail ht]
    show Res.ok _ = _
    generalize (processRows (ls.filterMap wideCodes) {}).finish.blocks = bs
    by_cases hb : bs = []
    · subst hb; rfl
    · have e1 : widthMsg (u8!"begin") = u8!"// --- begin generated code from 'parseEastAsiaWidth.sh' ---\n" := by
        decide
      have e2 : widthMsg (u8!"end") = u8!"// --- end generated code from 'parseEastAsiaWidth.sh' ---\n" := by
        decide
      rw [widthPrintLoop_eq bs hb, Spec.widthTable, if_neg hb, e1, e2]
  · intro b hb
    have hf := (finish_from _ _ (processRows_from (ls.filterMap wideCodes) _ (fun _ m => m) {}
      ⟨by simp, by simp⟩)).1 b hb
    obtain ⟨h1, h2⟩ := hf
    obtain ⟨⟨x, e⟩, hx, rfl⟩ := List.mem_map.mp h1
    obtain ⟨⟨s, y⟩, hy, hy'⟩ := List.mem_map.mp h2
    obtain ⟨l, hl, hle⟩ := List.mem_filterMap.mp hx
    obtain ⟨l', hl', hle'⟩ := List.mem_filterMap.mp hy
    refine ⟨⟨l, hl, e, hle⟩, ⟨l', hl', s, ?_⟩⟩
    rw [hle', ← hy']

/-- Entries that touch are joined; other classes and comments are left out. -/
def sampleWidths : Str :=
  u8!"# EastAsianWidth\n\n2648..2653;W     # So    [12] ARIES..PISCES\n2654;F\n2655;N\n267F;W\nFF01..FF03;F # Po [3]\n"

example : widthBlocks sampleWidths = .ok [(u8!"2648", u8!"2654"), (u8!"267F", u8!"267F"), (u8!"FF01", u8!"FF03")] := by
  decide +kernel

example : widthScript (some sampleWidths) = .ok (u8!"// --- begin generated code from 'parseEastAsiaWidth.sh' ---\ninline constexpr std::array WideBlocks{\n  makeBlock<0x2648, 0x2654>(),\n  makeBlock<0x267F>(),\n  makeBlock<0xFF01, 0xFF03>()\n};\n// --- end generated code from 'parseEastAsiaWidth.sh' ---\n", 0) := by
  decide +kernel

/-- The form with blanks around the semicolon (Unicode 15.1) is not found, and neither is a last line
without a newline. -/
example : widthBlocks (u8!"267F           ; W # So\n") = .ok [] ∧ widthBlocks (u8!"267F;W") = .ok [] := by
  decide +kernel

/-- The hypotheses of the theorems hold for this file. -/
example : (WidthLine.entry (u8!"2648") (some (u8!"2653")) (u8!"W") (u8!"  # So")).Fits := by
  refine ⟨⟨by decide, by decide, by decide⟩, ?_, by decide, ?_⟩
  · rintro e ⟨⟩; exact ⟨⟨by decide, by decide, by decide⟩, by decide⟩
  · exact ⟨by decide, u8!"  ", u8!"# So", by decide, by decide, Or.inr ⟨u8!" So", by decide⟩⟩

/-- A file with one entry for each block of the table. -/
def wideTableLines : List WidthLine :=
  wideBlocks.map fun b => .entry (toHex 4 b.start .none .upper 4) (some (toHex 4 b.stop .none .upper 4)) (u8!"W") []

theorem wideTableLines_codes : ∀ b ∈ wideBlocks,
    let s := toHex 4 b.start .none .upper 4
    let e := toHex 4 b.stop .none .upper 4
    (4 ≤ s.length ∧ s.length ≤ 6 ∧ s.all isHexChar = true) ∧
    (4 ≤ e.length ∧ e.length ≤ 6 ∧ e.all isHexChar = true) ∧ hexValue s ≤ hexValue e := by
  decide +kernel

/-- The hypotheses of `C192_table` hold for it. -/
example : (∀ l ∈ wideTableLines, l.Fits) ∧ Ascending (wideRows wideTableLines) ∧
    ∀ c, Covers (wideRows wideTableLines) c ↔ inRange c wideBlocks = true := by
  have e : wideRows wideTableLines = wideBlocks := by decide +kernel
  refine ⟨?_, ?_, ?_⟩
  · intro l hl
    obtain ⟨b, hb, rfl⟩ := List.mem_map.mp hl
    obtain ⟨⟨h1, h2, h3⟩, ⟨h4, h5, h6⟩, h7⟩ := wideTableLines_codes b hb
    refine ⟨⟨h1, h2, List.all_eq_true.mp h3⟩, ?_, by decide, by decide, [], [], rfl, by simp, Or.inl rfl⟩
    rintro x ⟨⟩
    exact ⟨⟨h4, h5, List.all_eq_true.mp h6⟩, h7⟩
  · rw [e]; unfold Ascending; decide +kernel
  · intro c; rw [e, inRange_covers _ wideBlocks_apart]

end KT
