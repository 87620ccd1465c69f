import Verif.Props.Converter
/-!
# Text in both scripts

What a conversion of one script to Romaji does to the letters of the other script.
-/
namespace KT
open Spec
namespace Converter

/-- A letter or iteration mark of a script. -/
def OfScript (k : Bool) (x : Char) : Prop := IsLetter k x ∨ IsIterationMark k x

instance (k : Bool) : DecidablePred (OfScript k) := fun x => by unfold OfScript; infer_instance

/-- A character as it is written in Romaji, or any other that isn't a letter of a script. -/
def Latin (x : Char) : Prop := Simple x ∧ ∀ k, ¬ OfScript k x

def LatinText (s : Str) : Prop := ∃ b : List Char, s = utf8Encode b ∧ ∀ x ∈ b, Latin x

theorem latin_append {a b : Str} (ha : LatinText a) (hb : LatinText b) : LatinText (a ++ b) := by
  obtain ⟨ra, rfl, h1⟩ := ha
  obtain ⟨rb, rfl, h2⟩ := hb
  refine ⟨ra ++ rb, by simp [utf8Encode], fun r hr => ?_⟩
  rcases List.mem_append.mp hr with h | h
  · exact h1 r h
  · exact h2 r h

theorem latin_char {c : Char} (h : Latin c) : LatinText (String.utf8EncodeChar c) := ⟨[c], by simp [utf8Encode], by simpa using h⟩

/-- Ascii without the zero byte. -/
def Ascii (s : Str) : Prop := ∀ b ∈ s, 0 < b.toNat ∧ b.toNat < 128

theorem latin_ascii {s : Str} (h : Ascii s) : LatinText s := by
  induction s with
  | nil => exact ⟨[], rfl, by simp⟩
  | cons b s ih =>
    have hb := h b List.mem_cons_self
    have hs : IsScalar b.toNat := by simp only [IsScalar]; omega
    have : LatinText [b] := by
      have e : [b] = String.utf8EncodeChar (charOf b.toNat hs) := by
        rw [encodeChar_charOf, enc, if_pos (by omega)]; simp
      rw [e]
      refine latin_char ⟨?_, fun k => ?_⟩
      · unfold Simple IsSelector IsKanaMark
        rw [charOf_toNat]
        omega
      · unfold OfScript IsLetter IsIterationMark
        rw [charOf_toNat]
        cases k <;> simp <;> omega
    exact latin_append this (ih fun b hb => h b (List.mem_cons_of_mem _ hb))

theorem romaji_bytes {k : Kana} (hk : k ∈ allKana) (f : ConvertFlags) {r : Str} (h : k.getRomaji f = some r) : Ascii r := by
  have hall : ∀ f ∈ [(⟨false, false, false, false⟩ : ConvertFlags), ⟨false, true, false, false⟩,
      ⟨true, false, false, false⟩, ⟨true, true, false, false⟩],
      allKana.all (fun k => ((k.getRomaji f).getD []).all fun b => decide (0 < b.toNat ∧ b.toNat < 128)) = true := by
    decide +kernel
  have hf : k.getRomaji f = k.getRomaji ⟨f.hepburn, f.kunrei, false, false⟩ := rfl
  rw [hf] at h
  have := List.all_eq_true.mp (hall ⟨f.hepburn, f.kunrei, false, false⟩ (by
    cases f.hepburn <;> cases f.kunrei <;> simp)) k hk
  rw [h] at this
  simpa [Ascii] using this

theorem kanaOut_bytes {c : Converter} (hc : c.target = .romaji) {k : Kana} (hk : k ∈ allKana) :
    (Ascii (kanaOut c k) ∧ kanaOut c k ≠ []) ∧ Ascii (sokuonOut c k) ∧ sokuonOut c k ≠ [] := by
  obtain ⟨x, r, h⟩ := getRomaji_some hk c.flags
  have ha := romaji_bytes hk c.flags h
  refine ⟨⟨?_, ?_⟩, ?_, ?_⟩
  · simpa [kanaOut, Kana.get, hc, h] using ha
  · simp [kanaOut, Kana.get, hc, h]
  · intro b hb
    simp only [sokuonOut, Kana.getSokuonRomaji, h, Option.map_some, Option.getD_some, List.mem_cons] at hb
    rcases hb with hb | hb
    · subst hb
      split
      · decide
      · exact ha _ (by simp)
    · exact ha b (by simpa using hb)
  · simp [sokuonOut, Kana.getSokuonRomaji, h]

theorem prolong_latin : LatinText prolongMark := by
  have : LatinText (String.utf8EncodeChar 'ー') := latin_char ⟨by decide, by decide⟩
  exact this

theorem macron_latin {c : Converter} {s : Str} (h : Ascii s) (hn : s ≠ []) (pr : Bool) :
    LatinText (macronOut c pr s) ∧ macronOut c pr s ≠ [] := by
  unfold macronOut
  split
  · split
    · exact ⟨latin_append (latin_ascii h) prolong_latin, by simp [hn]⟩
    · split
      · rename_i hb; exact absurd (List.getLast?_eq_none_iff.mp hb) hn
      · rename_i b hb
        split
        · rename_i m hm
          have key : LatinText m ∧ m ≠ [] := by
            have mc : ∀ c ∈ ['ā', 'ī', 'ū', 'ē', 'ō'], LatinText (String.utf8EncodeChar c) ∧ String.utf8EncodeChar c ≠ [] := by
              intro c hc
              refine ⟨latin_char ?_, ?_⟩
              · revert hc; revert c; unfold Latin; decide
              · revert hc; revert c; decide
            unfold macronLetter at hm
            split at hm
            · cases hm; exact mc 'ā' (by decide)
            split at hm
            · cases hm; exact mc 'ī' (by decide)
            split at hm
            · cases hm; exact mc 'ū' (by decide)
            split at hm
            · cases hm; exact mc 'ē' (by decide)
            split at hm
            · cases hm; exact mc 'ō' (by decide)
            · cases hm
          exact ⟨latin_append (latin_ascii fun b hb => h b (List.dropLast_subset _ hb)) key.1, by simp [key.2]⟩
        · exact ⟨latin_append (latin_ascii h) prolong_latin, by simp [hn]⟩
  · exact ⟨latin_ascii h, hn⟩

/-- The second text comes from the first by writing other texts for parts without letters that satisfy `L`; with `strict` no
part is left out. -/
inductive Blocks (L : Char → Prop) (strict : Prop) : List Char → List Char → Prop
  | nil : Blocks L strict [] []
  | same (x : Char) {cs rs : List Char} (h : Blocks L strict cs rs) : Blocks L strict (x :: cs) (x :: rs)
  | new (a b : List Char) {cs rs : List Char} (ha : ∀ x ∈ a, ¬ L x) (hb : ∀ x ∈ b, ¬ L x) (hn : strict → b ≠ [])
      (h : Blocks L strict cs rs) : Blocks L strict (a ++ cs) (b ++ rs)

/-- Letters stay. -/
theorem Blocks.letters {L : Char → Prop} [DecidablePred L] {strict : Prop} {cs rs : List Char} (h : Blocks L strict cs rs) :
    rs.filter (fun x => decide (L x)) = cs.filter (fun x => decide (L x)) := by
  induction h with
  | nil => rfl
  | same x h ih => rw [List.filter_cons, List.filter_cons, ih]
  | new a b ha hb hn h ih =>
    rw [List.filter_append, List.filter_append, ih]
    congr 1
    rw [List.filter_eq_nil_iff.mpr (by simpa using hb), List.filter_eq_nil_iff.mpr (by simpa using ha)]

/-- Letters at the beginning. -/
theorem Blocks.front {L : Char → Prop} {strict : Prop} (hs : strict) {cs rs : List Char} (h : Blocks L strict cs rs) :
    ∀ w v, rs = w ++ v → (∀ x ∈ w, L x) → ∃ v', cs = w ++ v' := by
  induction h with
  | nil =>
    intro w v he _
    obtain ⟨rfl, rfl⟩ := List.append_eq_nil_iff.mp he.symm
    exact ⟨[], rfl⟩
  | same x h ih =>
    intro w v he hw
    cases w with
    | nil => exact ⟨_, rfl⟩
    | cons y w =>
      rw [List.cons_append, List.cons.injEq] at he
      obtain ⟨rfl, he⟩ := he
      obtain ⟨v', hv⟩ := ih w v he fun x hx => hw x (List.mem_cons_of_mem _ hx)
      exact ⟨v', by rw [hv]; rfl⟩
  | new a b ha hb hn h ih =>
    intro w v he hw
    cases w with
    | nil => exact ⟨_, rfl⟩
    | cons y w =>
      cases b with
      | nil => exact absurd rfl (hn hs)
      | cons z b =>
        rw [List.cons_append, List.cons_append, List.cons.injEq] at he
        exact absurd (hw y List.mem_cons_self) (he.1 ▸ hb z List.mem_cons_self)

/-- Letters next to each other were so before. -/
theorem Blocks.infix {L : Char → Prop} {strict : Prop} (hs : strict) {cs rs : List Char} (h : Blocks L strict cs rs) :
    ∀ u w v, rs = u ++ w ++ v → w ≠ [] → (∀ x ∈ w, L x) → ∃ u' v', cs = u' ++ w ++ v' := by
  induction h with
  | nil =>
    intro u w v he hn _
    simp only [List.nil_eq, List.append_eq_nil_iff] at he
    exact absurd he.1.2 hn
  | @same x cs rs h ih =>
    intro u w v he hn hw
    cases u with
    | nil =>
      obtain ⟨v', hv⟩ := (Blocks.same x h).front hs w v (by simpa using he) hw
      exact ⟨[], v', by simpa using hv⟩
    | cons y u =>
      simp only [List.cons_append, List.cons.injEq] at he
      obtain ⟨rfl, he⟩ := he
      obtain ⟨u', v', hv⟩ := ih u w v he hn hw
      exact ⟨x :: u', v', by rw [hv]; rfl⟩
  | @new a b cs rs ha hb hne h ih =>
    intro u w v he hn hw
    by_cases hl : b.length ≤ u.length
    · rw [List.append_assoc, List.append_eq_append_iff] at he
      rcases he with ⟨u1, h1, h2⟩ | ⟨u1, h1, h2⟩
      · subst h1
        obtain ⟨u', v', hv⟩ := ih u1 w v (by rw [h2, List.append_assoc]) hn hw
        exact ⟨a ++ u', v', by rw [hv]; simp⟩
      · have : u1 = [] := by
          have := congrArg List.length h1
          simp only [List.length_append] at this
          exact List.length_eq_zero_iff.mp (by omega)
        subst this
        obtain ⟨u', v', hv⟩ := ih [] w v (by simpa using h2.symm) hn hw
        exact ⟨a ++ u', v', by rw [hv]; simp⟩
    · exfalso
      cases w with
      | nil => exact hn rfl
      | cons y w =>
        have h1 : (b ++ rs)[u.length]? = some y := by
          rw [he, List.append_assoc, List.getElem?_append_right (Nat.le_refl _)]
          simp
        rw [List.getElem?_append_left (by omega)] at h1
        exact hb y (List.mem_of_getElem? h1) (hw y List.mem_cons_self)

theorem script_other {k : Bool} {x : Char} (h : OfScript k x) : ¬ OfScript (!k) x := by
  revert h
  cases k <;> simp only [OfScript, IsLetter, IsIterationMark, Bool.false_eq_true, if_false, if_true, Bool.not_false, Bool.not_true] <;> omega

theorem encode_cons (x : Char) (cs : List Char) : utf8Encode (x :: cs) = String.utf8EncodeChar x ++ utf8Encode cs := by
  simp [utf8Encode]

theorem encode_append (a b : List Char) : utf8Encode (a ++ b) = utf8Encode a ++ utf8Encode b := by
  simp [utf8Encode]

theorem encodeChar_same {x y : Char} (h : String.utf8EncodeChar x = String.utf8EncodeChar y) : x = y := by
  have := utf8Encode_inj (a := [x]) (b := [y]) (by simpa [utf8Encode] using h)
  simpa using this

/-- Delimiters are no letters or marks of a script. -/
theorem delim_script {x : Char} {n : UInt8} (h : wideDelimFind (String.utf8EncodeChar x) = some n) (k : Bool) : ¬ OfScript k x := by
  intro hl
  have hall : ∀ k : Bool, (delims.all fun d => !((List.range 94).any fun i =>
      (i < 86 || i == 92 || i == 93) && d.2 == enc ((if k then 0x30a1 else 0x3041) + i))) = true := by
    decide +kernel
  obtain ⟨d, hd, hde⟩ := List.mem_map.mp (lookup_mem h)
  have h1 := List.all_eq_true.mp (hall k) d hd
  have h2 : d.2 = enc x.toNat := by rw [← utf8EncodeChar_eq_enc]; exact congrArg Prod.fst hde
  simp only [Bool.not_eq_true', List.any_eq_false, List.mem_range] at h1
  have range : ∃ i, i < 94 ∧ (i < 86 ∨ i = 92 ∨ i = 93) ∧ x.toNat = (if k = true then 0x30a1 else 0x3041) + i := by
    unfold OfScript IsLetter IsIterationMark at hl
    cases k
    · simp only [Bool.false_eq_true, if_false] at hl ⊢
      exact ⟨x.toNat - 0x3041, by omega, by omega, by omega⟩
    · simp only [if_true] at hl ⊢
      exact ⟨x.toNat - 0x30a1, by omega, by omega, by omega⟩
  obtain ⟨i, hi, hj, he⟩ := range
  apply h1 i hi
  rw [h2, ← he]
  simp only [BEq.rfl, Bool.and_true, Bool.or_eq_true, decide_eq_true_eq, beq_iff_eq]
  omega

/-- The outputs of items, next to the text they come from. -/
theorem itemOut_blocks {c : Converter} {t : CharType} (ht : t ≠ .romaji) (hc : c.target = .romaji) {strict : Prop} :
    ∀ (items : List Item) (cs : List Char), Valid t items → items.flatMap (Item.src t) = cs.map String.utf8EncodeChar →
      (∀ x s pr n, Bad t x s → .group [smallTsu, x, s] pr n ∉ items) →
      (∀ x ∈ cs, Simple x ∧ (strict → ¬ IsIterationMark (t == .katakana) x)) →
      ∃ rs, items.flatMap (itemOut c t) = utf8Encode rs ∧ Blocks (OfScript (!(t == .katakana))) strict cs rs ∧
        (∀ x ∈ rs, Simple x) ∧ ∀ x ∈ rs, ¬ IsLetter (t == .katakana) x := by
  intro items
  induction items with
  | nil =>
    intro cs _ he _ _
    cases cs with
    | nil => exact ⟨[], rfl, .nil, by simp, by simp⟩
    | cons x cs => cases he
  | cons i items ih =>
    intro cs hv he hb hcs
    have hb' : ∀ x s pr n, Bad t x s → .group [smallTsu, x, s] pr n ∉ items :=
      fun x s pr n h hm => hb x s pr n h (List.mem_cons_of_mem _ hm)
    rw [List.flatMap_cons] at he
    obtain ⟨a, cs', rfl, ha, hcs'⟩ := List.map_eq_append_iff.mp he.symm
    have hvi : Valid t items := by
      cases i with
      | group => exact hv.2.2.2.2
      | prolong => exact hv
      | mark => exact hv.2.2.2
      | other => exact hv.2.2.2
    obtain ⟨rs, h1, h2, h3, h4⟩ := ih cs' hvi hcs'.symm hb' fun x hx => hcs x (List.mem_append_right _ hx)
    have new : ∀ s : Str, LatinText s → (strict → s ≠ []) → (∀ x ∈ a, ¬ OfScript (!(t == .katakana)) x) →
        itemOut c t i = s → ∃ rs, (i :: items).flatMap (itemOut c t) = utf8Encode rs ∧
          Blocks (OfScript (!(t == .katakana))) strict (a ++ cs') rs ∧ (∀ x ∈ rs, Simple x) ∧
          ∀ x ∈ rs, ¬ IsLetter (t == .katakana) x := by
      rintro s ⟨b, rfl, hlat⟩ hne haa hout
      refine ⟨b ++ rs, by rw [List.flatMap_cons, h1, hout, encode_append], .new a b haa (fun x hx => (hlat x hx).2 _) ?_ h2, ?_, ?_⟩
      · rintro hs rfl; exact hne hs rfl
      · intro x hx
        rcases List.mem_append.mp hx with hx | hx
        · exact (hlat x hx).1
        · exact h3 x hx
      · intro x hx
        rcases List.mem_append.mp hx with hx | hx
        · exact fun h => (hlat x hx).2 _ (.inl h)
        · exact h4 x hx
    have letter : ∀ x : Char, ∀ k : Kana, k ∈ allKana → String.utf8EncodeChar x = k.str t → ¬ OfScript (!(t == .katakana)) x :=
      fun x k hk he => script_other (.inl ((letter_char ht).mp ⟨k, (found_iff ht).mpr ⟨hk, he⟩⟩))
    cases i with
    | prolong =>
      refine new _ prolong_latin (fun _ => by decide) ?_ rfl
      intro x hx
      have : String.utf8EncodeChar x = prolongMark := by
        have := List.mem_map_of_mem (f := String.utf8EncodeChar) hx
        rw [ha] at this
        simpa [Item.src] using this
      have : x = 'ー' := encodeChar_same (this.trans rfl)
      subst this
      cases t <;> decide
    | mark p m prev =>
      obtain ⟨x, rfl, hx⟩ : ∃ x, a = [x] ∧ String.utf8EncodeChar x = p := by
        match a, ha with
        | [x], ha => exact ⟨x, rfl, by simpa [Item.src] using ha⟩
        | [], ha => cases ha
        | _ :: _ :: _, ha => simp [Item.src] at ha
      have him : IsIterationMark (t == .katakana) x := (iteration_char ht).mp ⟨m, by rw [hx]; exact hv.2.1⟩
      obtain ⟨s, hs⟩ := mark_get (m := m) hv.2.2.1 c.target c.flags
      refine new s (latin_ascii ?_) (fun h => absurd him ((hcs x (by simp)).2 h)) ?_ (by simp [itemOut, hs])
      · rw [hc] at hs
        unfold IterationMark.get at hs
        simp only at hs
        split at hs
        · cases hs; intro b hb; cases hb
        · rename_i q
          have hk := hv.2.2.1 q rfl
          have hd : allKana.all (fun k => (k.dakuten.getD k) ∈ allKana && (k.plain.getD k) ∈ allKana) = true := by
            decide +kernel
          have := List.all_eq_true.mp hd q hk
          simp only [Bool.and_eq_true, decide_eq_true_eq] at this
          refine romaji_bytes (k := if m.dakuten = true then q.dakuten.getD q else q.plain.getD q) ?_ c.flags hs
          split
          · exact this.1
          · exact this.2
      · intro y hy
        rw [List.mem_singleton] at hy
        subst hy
        exact script_other (.inr him)
    | other p =>
      obtain ⟨x, rfl, hx⟩ : ∃ x, a = [x] ∧ String.utf8EncodeChar x = p := by
        match a, ha with
        | [x], ha => exact ⟨x, rfl, by simpa [Item.src] using ha⟩
        | [], ha => cases ha
        | _ :: _ :: _, ha => simp [Item.src] at ha
      cases hw : wideDelimFind p with
      | some n =>
        have hall : (delims.map fun p => (p.2, p.1)).all (fun q => decide (0 < q.2.toNat ∧ q.2.toNat < 128)) = true := by
          decide +kernel
        have hn := of_decide_eq_true (List.all_eq_true.mp hall (p, n) (lookup_mem hw))
        refine new [n] (latin_ascii fun b hb => ?_) (fun _ => by simp) ?_ (by simp [itemOut, hc, hw])
        · rw [List.mem_singleton] at hb; subst hb; exact hn
        · intro y hy
          rw [List.mem_singleton] at hy
          subst hy
          exact delim_script (by rw [hx]; exact hw) _
      | none =>
        refine ⟨x :: rs, ?_, .same x h2, ?_, ?_⟩
        · rw [List.flatMap_cons, h1, encode_cons, hx]
          simp [itemOut, hw]
        · intro y hy
          rcases List.mem_cons.mp hy with rfl | hy
          · exact (hcs y (by simp)).1
          · exact h3 y hy
        · intro y hy hl
          rcases List.mem_cons.mp hy with rfl | hy
          · obtain ⟨k, hk⟩ := (letter_char ht).mpr hl
            rw [hx, hv.2.2.1] at hk
            cases hk
          · exact h4 y hy hl
    | group g pr next =>
      obtain ⟨hg, hs, hl, _, _⟩ := hv
      have hsrc : ∀ x ∈ a, ¬ OfScript (!(t == .katakana)) x := by
        intro x hx
        have := List.mem_map_of_mem (f := String.utf8EncodeChar) hx
        rw [ha] at this
        simp only [Item.src, List.mem_append, List.mem_map] at this
        rcases this with ⟨k, hk, he⟩ | he
        · exact letter x k (hl k hk).1 he.symm
        · split at he
          · have : x = 'ー' := encodeChar_same ((List.mem_singleton.mp he).trans rfl)
            subst this
            cases t <;> decide
          · cases he
      have key : LatinText (groupOut c t g pr) ∧ groupOut c t g pr ≠ [] := by
        cases group_kind ht hg hs hl with
        | one k hk hN hst ho =>
          rw [ho]
          exact macron_latin (kanaOut_bytes hc hk).1.1 (kanaOut_bytes hc hk).1.2 pr
        | two x k hx hk hxN hkN hkt hd hlen hh hst ho =>
          rw [ho]
          split
          · exact macron_latin (kanaOut_bytes hc hk).2.1 (kanaOut_bytes hc hk).2.2 pr
          · have h5 := macron_latin (c := c) (kanaOut_bytes hc hk).1.1 (kanaOut_bytes hc hk).1.2 pr
            exact ⟨latin_append (latin_ascii (kanaOut_bytes hc hx.1).1.1) h5.1, by simp [h5.2]⟩
        | bad x s hbad hgg ho =>
          exact absurd (by rw [hgg]; exact List.mem_cons_self) (hb x s pr next hbad)
      refine new (itemOut c t (.group g pr next)) ?_ ?_ hsrc rfl
      · refine latin_append key.1 ?_
        split
        · exact latin_ascii (by unfold Ascii; decide)
        · exact ⟨[], rfl, by simp⟩
      · intro _ h
        exact key.2 (List.append_eq_nil_iff.mp h).1

/-- Conversion of one script to Romaji: no letters of it remain, and those of the other script stay as they are. -/
theorem toRomaji_blocks (c : Converter) {t : CharType} (ht : t ≠ .romaji) (hc : c.target = .romaji) (strict : Prop)
    {cs : List Char} (h : ∀ x ∈ cs, Simple x ∧ (strict → ¬ IsIterationMark (t == .katakana) x)) (hr : Readable t cs) :
    ∃ rs, c.convertFrom t (utf8Encode cs) = .ok (utf8Encode rs) ∧ Blocks (OfScript (!(t == .katakana))) strict cs rs ∧
      (∀ x ∈ rs, Simple x) ∧ ∀ x ∈ rs, ¬ IsLetter (t == .katakana) x := by
  have hs := fun x hx => (h x hx).1
  obtain ⟨items, k1, k2, k3⟩ := fromKana_items c ht (simple_pieces hs).1
  obtain ⟨rs, h1, h2⟩ := itemOut_blocks (strict := strict) ht hc items cs k1 k2 (by
    intro x s pr n hb hm
    obtain ⟨a, x', s', b, he, hu, _⟩ := bad_infix ht k1 k2 hb hm
    exact hr a x' s' b he hu) h
  exact ⟨rs, by rw [convertFrom_simple c ht (by rw [hc]; exact fun h => ht h.symm) hs, k3, h1], h2⟩

end Converter
end KT
