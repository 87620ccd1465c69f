import Verif.Lemmas.UcdDefinitionFound
import Verif.Lemmas.Kana
import Verif.Props.UcdScript
/-!
# C197: links found in definitions

Model: `Verif/Model/UcdDefinition.lean`.
-/
namespace KT
open Spec

/-! ## The records searched -/

theorem rsUnicode_dot (e : UcdEntry) :
    (((e.text .rsUnicode).dropWhile isDigitChar).head? == some 0x2e) = (e.marks == 0) := by
  obtain ⟨c, z, hz, hc, hc'⟩ := replicate_dot e.marks (toDec e.rest ++ e.more)
  have et : e.text .rsUnicode = toDec e.radical ++ c :: z := by
    rw [← hz]; simp [UcdEntry.text]
  rw [et, List.dropWhile_append_of_pos (fun a ha => toDec_digit _ a ha)]
  have : (c :: z).dropWhile isDigitChar = c :: z := by
    rcases hc' with rfl | rfl <;> rfl
  rw [this, Bool.eq_iff_iff]
  rcases hc' with rfl | rfl
  · have : e.marks = 0 := Classical.not_not.mp fun h => absurd (hc.mpr h) (by decide)
    simp [this]
  · simp [hc.mp rfl]

theorem prefix_end (w s : Str) (c : UInt8) :
    (w ++ [c]).isPrefixOf s = true ↔ w.isPrefixOf s = true ∧ (s.drop w.length).head? = some c := by
  rw [List.isPrefixOf_iff_prefix, List.isPrefixOf_iff_prefix]
  constructor
  · rintro ⟨t, rfl⟩
    exact ⟨⟨c :: t, by simp⟩, by simp⟩
  · rintro ⟨⟨t, rfl⟩, h⟩
    rw [List.drop_left] at h
    cases t with
    | nil => cases h
    | cons b t => cases h; exact ⟨t, by simp⟩

theorem hasTypeWord_eq (d : Str) : hasTypeWord d = announces d := by
  rw [Bool.eq_iff_iff]
  induction d with
  | nil => simp [hasTypeWord, announces, behind]
  | cons b s ih =>
    rw [hasTypeWord, Bool.or_eq_true, ih]
    have h1 : (definitionTypes.any fun t => (t ++ u8!" ").isPrefixOf (b :: s) || (t ++ u8!",").isPrefixOf (b :: s)) = true ↔
        ∃ w ∈ linkWords, w.isPrefixOf (b :: s) = true ∧
          (((b :: s).drop w.length).head? = some 0x20 ∨ ((b :: s).drop w.length).head? = some 0x2c) := by
      rw [List.any_eq_true]
      constructor
      · rintro ⟨w, hw, h⟩
        rw [Bool.or_eq_true, prefix_end, prefix_end] at h
        exact ⟨w, hw, by rcases h with h | h <;> exact h.1, by rcases h with h | h; exact .inl h.2; exact .inr h.2⟩
      · rintro ⟨w, hw, h, h'⟩
        refine ⟨w, hw, ?_⟩
        rw [Bool.or_eq_true, prefix_end, prefix_end]
        rcases h' with h' | h'
        · exact .inl ⟨h, h'⟩
        · exact .inr ⟨h, h'⟩
    rw [h1]
    unfold announces
    simp only [List.any_eq_true, Bool.or_eq_true, beq_iff_eq]
    constructor
    · rintro (⟨w, hw, h, h'⟩ | ⟨w, hw, r, hr, h⟩)
      · exact ⟨w, hw, _, by rw [behind, if_pos h]; exact List.mem_append_right _ List.mem_cons_self, h'⟩
      · exact ⟨w, hw, r, by rw [behind]; exact List.mem_append_left _ hr, h⟩
    · rintro ⟨w, hw, r, hr, h⟩
      rw [behind] at hr
      rcases List.mem_append.mp hr with hr | hr
      · exact .inr ⟨w, hw, r, hr, h⟩
      · by_cases hp : w.isPrefixOf (b :: s) = true
        · rw [if_pos hp] at hr
          rw [List.mem_singleton] at hr
          subst hr
          exact .inl ⟨w, hw, hp, h⟩
        · rw [if_neg hp] at hr; cases hr

theorem definitionRecords_entries : ∀ (xs : List UcdXml) (es : List UcdEntry), AllRecords xs es →
    definitionRecords xs = (es.filter UcdEntry.searched).map fun e => (e.cp, e.definition)
  | [], [], _ => rfl
  | [], _ :: _, h => h.elim
  | _ :: _, [], h => h.elim
  | x :: xs, e :: es, ⟨⟨hr, _⟩, h⟩ => by
    have ih := definitionRecords_entries xs es h
    have h1 := hr.1 .rsUnicode
    have h2 : (x .definition).getD [] = e.definition := hr.1 .definition
    have h3 : (x .cp).getD [] = e.cp := hr.1 .cp
    unfold definitionRecords at ih ⊢
    rw [List.filter_cons, List.filter_cons, h1, h2, rsUnicode_dot, hasTypeWord_eq]
    have : (e.marks == 0 && announces e.definition) = e.searched := rfl
    rw [this]
    cases e.searched with
    | true => simp only [if_true, List.map_cons, h2, h3]; rw [ih]
    | false => exact ih

/-! ## The codes of one record -/

theorem pick_record (F : Str → Option (List Str)) (c : Str) : ∀ rs : List (Str × Str), (rs.map (·.1)).Nodup →
    ((rs.filterMap fun r => (F r.2).map fun l => (r.1, l)).filter fun p => p.1 == c).flatMap (·.2) =
      match rs.lookup c with | some d => (F d).getD [] | none => []
  | [], _ => rfl
  | (k, d) :: rs, h => by
    rw [List.map_cons, List.nodup_cons] at h
    have ih := pick_record F c rs h.2
    by_cases hk : c = k
    · subst hk
      have hl : rs.lookup c = none := by
        rw [List.lookup_eq_none_iff]
        intro p hp
        rw [bne_iff_ne]
        intro hc
        exact h.1 (by show c ∈ _; rw [hc]; exact List.mem_map_of_mem (f := (·.1)) hp)
      rw [hl] at ih
      rw [List.lookup_cons, beq_self_eq_true, List.filterMap_cons]
      cases hF : F d with
      | none => simpa [hF] using ih
      | some l =>
        simp only [hF, Option.map_some, Option.getD_some]
        rw [List.filter_cons_of_pos (by simp), List.flatMap_cons, ih, List.append_nil]
    · have hk' : (c == k) = false := by simpa using hk
      rw [List.lookup_cons, hk', List.filterMap_cons]
      cases hF : F d with
      | none => simpa [hF] using ih
      | some l =>
        simp only [Option.map_some]
        rw [List.filter_cons_of_neg (by simpa using fun h => hk h.symm), ih]

theorem flatMap_on {α β : Type} {f g : α → List β} : ∀ {l : List α}, (∀ a ∈ l, f a = g a) → l.flatMap f = l.flatMap g
  | [], _ => rfl
  | a :: l, h => by
    rw [List.flatMap_cons, List.flatMap_cons, h a List.mem_cons_self, flatMap_on fun b hb => h b (List.mem_cons_of_mem _ hb)]

theorem first_three {β : Type} (f : Str → List β) (ps : List Str) :
    ([0, 1, 2].flatMap fun n => (ps[n]?.map f).getD []) = (ps.take 3).flatMap f := by
  match ps with
  | [] => rfl
  | [a] => simp
  | [a, b] => simp
  | a :: b :: c :: ps => simp

theorem found_of (rs : List (Str × Str)) (hn : (rs.map (·.1)).Nodup) (hq : ∀ r ∈ rs, 0x22 ∉ r.2) (c : Str) :
    ((definitionTypes.flatMap fun t => [0, 1, 2].flatMap fun n => linksForType rs t n).filter fun p => p.1 == c).flatMap (·.2) =
      match rs.lookup c with | some d => definitionCodes d | none => [] := by
  have hmem : ∀ d, rs.lookup c = some d → 0x22 ∉ d := fun d h => hq (c, d) (lookup_mem h)
  have one : ∀ w ∈ linkWords, ∀ n, ((linksForType rs w n).filter fun p => p.1 == c).flatMap (·.2) =
      match rs.lookup c with
      | some d => ((definitionParts d)[n]?.map (partCodes w)).getD []
      | none => [] := by
    intro w hw n
    unfold linksForType
    have h1 := pick_record (fun d => (utfMatch w n d).map utfCodes) c rs hn
    have h2 := pick_record (fun d => (uniMatch w n d).map fun s => [s]) c rs hn
    simp only [Option.map_map, Function.comp_def] at h1 h2
    rw [List.filter_append, List.flatMap_append, h1, h2]
    cases hl : rs.lookup c with
    | none => rfl
    | some d =>
      simp only []
      rw [utfMatch_parts w hw n d (hmem d hl), uniMatch_parts w hw n d (hmem d hl)]
      cases (definitionParts d)[n]? with
      | none => rfl
      | some part =>
        simp only [Option.bind_some, Option.map_some, Option.getD_some, partCodes]
        congr 1
        · cases namedCharacters w part <;> rfl
        · cases namedCode w part <;> rfl
  rw [List.filter_flatMap, List.flatMap_assoc]
  have two : ∀ w ∈ linkWords, (([0, 1, 2].flatMap fun n => linksForType rs w n).filter fun p => p.1 == c).flatMap (·.2) =
      match rs.lookup c with | some d => ((definitionParts d).take 3).flatMap (partCodes w) | none => [] := by
    intro w hw
    rw [List.filter_flatMap, List.flatMap_assoc]
    have : ∀ n ∈ [0, 1, 2], ((linksForType rs w n).filter fun p => p.1 == c).flatMap (·.2) = _ := fun n _ => one w hw n
    rw [flatMap_on this]
    cases rs.lookup c with
    | none => rfl
    | some d => exact first_three (partCodes w) (definitionParts d)
  show linkWords.flatMap _ = _
  rw [flatMap_on two]
  cases rs.lookup c with
  | none => simp
  | some d => rfl

theorem lookup_entry (P : UcdEntry → Bool) : ∀ fs : List UcdEntry, (fs.map UcdEntry.cp).Nodup → ∀ e ∈ fs,
    ((fs.filter P).map fun e => (e.cp, e.definition)).lookup e.cp = if P e then some e.definition else none
  | [], _, _, h => absurd h List.not_mem_nil
  | f :: fs, hn, e, he => by
    rw [List.map_cons, List.nodup_cons] at hn
    rcases List.mem_cons.mp he with rfl | he
    · have hl : ((fs.filter P).map fun e => (e.cp, e.definition)).lookup e.cp = none := by
        rw [List.lookup_eq_none_iff]
        intro p hp
        rw [bne_iff_ne]
        obtain ⟨d, hd, rfl⟩ := List.mem_map.mp hp
        intro hc
        exact hn.1 (by rw [hc]; exact List.mem_map_of_mem (List.mem_filter.mp hd).1)
      rw [List.filter_cons]
      cases h : P e with
      | true => simp
      | false => simpa using hl
    · have ih := lookup_entry P fs hn.2 e he
      have hne : (e.cp == f.cp) = false := by
        rw [beq_eq_false_iff_ne]
        intro hc
        exact hn.1 (by rw [← hc]; exact List.mem_map_of_mem he)
      rw [List.filter_cons]
      cases h : P f with
      | true => simpa [List.lookup_cons, hne] using ih
      | false => simpa using ih

/-! ## The property -/

/-- The codes found for an entry are those that its definition announces, if it is searched. -/
theorem C197_codes (xs : List UcdXml) (fs : List UcdEntry) (h : AllRecords xs fs) (hn : (fs.map UcdEntry.cp).Nodup)
    (hq : ∀ e ∈ fs, 0x22 ∉ e.definition) (e : UcdEntry) (he : e ∈ fs) :
    ((definitionFound xs).filter fun p => p.1 == e.cp).flatMap (·.2) =
      if e.searched then definitionCodes e.definition else [] := by
  unfold definitionFound
  rw [definitionRecords_entries xs fs h]
  rw [found_of]
  · rw [lookup_entry UcdEntry.searched fs hn e he]
    cases e.searched <;> rfl
  · rw [List.map_map]
    exact ((List.filter_sublist).map UcdEntry.cp).nodup hn
  · intro r hr
    obtain ⟨d, hd, rfl⟩ := List.mem_map.mp hr
    exact hq d (List.mem_filter.mp hd).1

/-- The link stored for an entry: the first of these codes that has readings, unless the script itself gives one. -/
theorem C197_links (first all : List UcdXml) (es fs : List UcdEntry) (h1 : AllRecords first es) (h2 : AllRecords all fs)
    (hn : (fs.map UcdEntry.cp).Nodup) (hq : ∀ e ∈ fs, 0x22 ∉ e.definition) (e : UcdEntry) (he : e ∈ fs) :
    (scriptArrays first (definitionFound all)).readingLink e.cp =
      match manualLinks.lookup e.cp with
      | some d => d
      | none =>
        ((if e.searched then definitionCodes e.definition else []).find? fun d => (readingOf es d).isSome).getD [] := by
  rw [scriptArrays_readingLink first es _ h1 e.cp (allRecords_fits all fs h2 e he).cp.1]
  unfold definitionLink
  cases manualLinks.lookup e.cp with
  | some d => rfl
  | none => simp only []; rw [C197_codes all fs h2 hn hq e he]

end KT
