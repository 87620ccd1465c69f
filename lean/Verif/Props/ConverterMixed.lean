import Verif.Lemmas.ConverterMixed
import Verif.Model.KanaConvert
/-!
# Text in both scripts and Romaji, without given source (C190)

`Converter::convert(const String&)` (Converter.cpp:97-102) converts from each type other than the target, one after the other.
-/
namespace KT
open Spec Converter

/-- The types converted from, in this order. -/
def sourcesFor : CharType → CharType × CharType
  | .hiragana => (.katakana, .romaji)
  | .katakana => (.hiragana, .romaji)
  | .romaji => (.hiragana, .katakana)

/-- **C190** (order): Hiragana before Katakana before Romaji, without the target. -/
theorem C190_steps (c : Converter) (s : Str) :
    c.convert s = (c.convertFrom (sourcesFor c.target).1 s).bind (c.convertFrom (sourcesFor c.target).2) := by
  obtain ⟨target, flags, p⟩ := c
  have pure : ∀ r : Res Str, (r.bind fun x => .ok x) = r := by intro r; cases r <;> rfl
  cases target
  · show (Res.ok s).bind (fun r => (convertFrom ⟨.hiragana, flags, p⟩ .katakana r).bind fun r =>
      (convertFrom ⟨.hiragana, flags, p⟩ .romaji r).bind fun r => .ok r) = _
    simp only [pure]; rfl
  · show (convertFrom ⟨.katakana, flags, p⟩ .hiragana s).bind (fun r => (Res.ok r).bind fun r =>
      (convertFrom ⟨.katakana, flags, p⟩ .romaji r).bind fun r => .ok r) = _
    simp only [pure]; rfl
  · show (convertFrom ⟨.romaji, flags, p⟩ .hiragana s).bind (fun r => (convertFrom ⟨.romaji, flags, p⟩ .katakana r).bind fun r =>
      (Res.ok r).bind fun r => .ok r) = _
    simp only [pure]; rfl

/-- Text without Ascii letters and vowels with macron isn't changed by a conversion from Romaji. -/
theorem romaji_same (c : Converter) (hc : c.target ≠ .romaji) : ∀ cs : List Char,
    (∀ x ∈ cs, Simple x ∧ 128 ≤ x.toNat ∧ x ∉ ['ā', 'ī', 'ū', 'ē', 'ō']) →
    c.convertFrom .romaji (utf8Encode cs) = .ok (utf8Encode cs) := by
  have nil : c.convertFrom .romaji [] = .ok [] := by
    unfold convertFrom
    rw [if_neg fun h => hc h.symm]
    rfl
  intro cs
  induction cs with
  | nil => intro _; exact nil
  | cons x cs ih =>
    intro h
    have := C31_partial c hc [] cs x [] (utf8Encode cs) (fun y hy => (h y (by simpa using hy)).1) (h x (by simp)).2.1
      (h x (by simp)).2.2 nil (ih fun y hy => h y (List.mem_cons_of_mem _ hy)) (by simp)
    simpa [encode_cons] using this

/-- **C190** (partial, kana): with a kana target the letters of the other script are written in it, then Romaji is converted; if
there is no Romaji that is all. -/
theorem C190_kana_partial (c : Converter) (hc : c.target ≠ .romaji) (cs : List Char) (h : ∀ x ∈ cs, Simple x)
    (hr : Readable (other c.target) cs) :
    c.convert (utf8Encode cs) = c.convertFrom .romaji (utf8Encode (cs.map (otherScript (c.target == .hiragana)))) ∧
    ((∀ x ∈ cs, 128 ≤ x.toNat ∧ x ∉ ['ā', 'ī', 'ū', 'ē', 'ō']) →
      c.convert (utf8Encode cs) = .ok (utf8Encode (cs.map (otherScript (c.target == .hiragana)))) ∧
      ∀ x ∈ cs.map (otherScript (c.target == .hiragana)), ¬ IsLetter (c.target == .hiragana) x) := by
  have h1 : c.convert (utf8Encode cs) =
      c.convertFrom .romaji (utf8Encode (cs.map (otherScript (c.target == .hiragana)))) := by
    rw [C190_steps]
    have hs := C26_partial c (other c.target) (by cases hx : c.target <;> simp_all [other]) (by
      cases hx : c.target <;> simp_all [other]) cs h hr
    cases hx : c.target with
    | romaji => exact absurd hx hc
    | hiragana => rw [hx] at hs; exact (congrArg (·.bind (c.convertFrom .romaji)) hs).trans rfl
    | katakana => rw [hx] at hs; exact (congrArg (·.bind (c.convertFrom .romaji)) hs).trans rfl
  have cases' : ∀ k x, (otherScript k x = x ∧ ¬ IsLetter k x) ∨ (0x3041 ≤ (otherScript k x).toNat ∧ OfScript (!k) (otherScript k x)) := by
    intro k x
    have big : ∀ k (y : Char), OfScript k y → 0x3041 ≤ y.toNat := by
      intro k y
      cases k <;> simp only [OfScript, IsLetter, IsIterationMark, Bool.false_eq_true, if_false, if_true] <;> omega
    rcases otherScript_cases k x with h | h | h
    · exact .inr ⟨big _ _ (.inl h.2.1), .inl h.2.1⟩
    · exact .inr ⟨big _ _ (.inr h.2.1), .inr h.2.1⟩
    · exact .inl ⟨h.2.2, h.1⟩
  refine ⟨h1, fun hn => ⟨?_, ?_⟩⟩
  · rw [h1]
    refine romaji_same c hc _ fun x hx => ?_
    obtain ⟨y, hy, rfl⟩ := List.mem_map.mp hx
    refine ⟨simple_other (h y hy), ?_⟩
    rcases cases' (c.target == .hiragana) y with h5 | h5
    · rw [h5.1]; exact hn y hy
    · refine ⟨by omega, fun hm => ?_⟩
      have : ∀ z ∈ ['ā', 'ī', 'ū', 'ē', 'ō'], z.toNat < 0x3041 := by decide
      have := this _ hm
      omega
  · intro x hx hl
    obtain ⟨y, hy, rfl⟩ := List.mem_map.mp hx
    rcases cases' (c.target == .hiragana) y with h5 | h5
    · rw [h5.1] at hl; exact h5.2 hl
    · exact script_other (.inl hl) h5.2

/-- **C190** (full statement for Romaji): text in both scripts that can be read in each of them is converted completely. -/
def C190_statement : Prop :=
  ∀ (c : Converter), c.target = .romaji → ∀ cs : List Char, (∀ x ∈ cs, Simple x) → Readable .hiragana cs → Readable .katakana cs →
    ∃ rs : List Char, c.convert (utf8Encode cs) = .ok (utf8Encode rs) ∧ ∀ x ∈ rs, ∀ k, ¬ IsLetter k x

/-- A Hiragana iteration mark without kana before it disappears in the first step and brings Katakana together that isn't
converted in the second. -/
theorem C190_violated : ¬ C190_statement := by
  intro h
  obtain ⟨rs, h1, h2⟩ := h ⟨.romaji, .none, true⟩ rfl ['ッ', 'ゝ', 'カ', 'ァ'] (by decide) (by
      intro a x s b he
      exact absurd (show tsu false ∈ ['ッ', 'ゝ', 'カ', 'ァ'] by rw [he]; exact List.mem_append_left _ (List.mem_append_right _ List.mem_cons_self)) (by decide))
    (by
      intro a x s b he hu
      match a, he with
      | [], he =>
        simp only [List.nil_append, List.cons_append, List.cons.injEq] at he
        obtain ⟨_, rfl, rfl, _⟩ := he
        exact absurd hu (by decide +kernel)
      | _ :: a, he =>
        simp only [List.cons_append, List.cons.injEq] at he
        have : tsu true ∈ ['ゝ', 'カ', 'ァ'] := by rw [he.2]; simp
        exact absurd this (by decide))
  have e : (⟨.romaji, .none, true⟩ : Converter).convert (utf8Encode ['ッ', 'ゝ', 'カ', 'ァ']) =
      .ok (utf8Encode ['l', 't', 'u', 'カ', 'ァ']) := by decide +kernel
  rw [e] at h1
  simp only [Res.ok.injEq] at h1
  rw [← utf8Encode_inj h1] at h2
  exact h2 'カ' (by decide) true (by decide)

/-- **C190** (partial, Romaji): without Hiragana iteration marks it is so.  The first step keeps the letters and marks of
Katakana in their order. -/
theorem C190_romaji_partial (c : Converter) (hc : c.target = .romaji) (cs : List Char)
    (h : ∀ x ∈ cs, Simple x ∧ ¬ IsIterationMark false x) (hh : Readable .hiragana cs) (hk : Readable .katakana cs) :
    ∃ ms rs : List Char, c.convertFrom .hiragana (utf8Encode cs) = .ok (utf8Encode ms) ∧
      ms.filter (fun x => IsLetter true x ∨ IsIterationMark true x) = cs.filter (fun x => IsLetter true x ∨ IsIterationMark true x) ∧
      c.convertFrom .katakana (utf8Encode ms) = .ok (utf8Encode rs) ∧ c.convert (utf8Encode cs) = .ok (utf8Encode rs) ∧
      ∀ x ∈ rs, ∀ k, ¬ IsLetter k x := by
  obtain ⟨ms, h1, h2, h3, h4⟩ := toRomaji_blocks c (t := .hiragana) (by decide) hc True (cs := cs) (by
    intro x hx; exact ⟨(h x hx).1, fun _ => (h x hx).2⟩) hh
  have hr : Readable .katakana ms := by
    intro a x s b he hu
    obtain ⟨u, v, hv⟩ := h2.infix trivial a [tsu true, x, s] b he (by simp) (by
      intro y hy
      simp only [List.mem_cons, List.not_mem_nil, or_false] at hy
      rcases hy with rfl | rfl | rfl
      · exact .inl (by decide)
      · exact .inl hu.1.1
      · refine .inl ?_
        have := hu.2.1
        unfold IsSmall smallCodes at this
        unfold IsLetter
        simp only [beq_self_eq_true, if_true, List.map_cons, List.map_nil, List.mem_cons, List.not_mem_nil, or_false] at this
        simp only [show ((!CharType.hiragana == CharType.katakana) = true) = True by decide, if_true]
        omega)
    exact hk u x s v hv hu
  obtain ⟨rs, k1, k2, k3, k4⟩ := toRomaji_blocks c (t := .katakana) (by decide) hc False (cs := ms) (by
    intro x hx; exact ⟨h3 x hx, False.elim⟩) hr
  refine ⟨ms, rs, h1, ?_, k1, ?_, ?_⟩
  · have := h2.letters
    exact this
  · rw [C190_steps, hc]
    show (c.convertFrom .hiragana (utf8Encode cs)).bind (c.convertFrom .katakana) = _
    rw [h1]
    exact k1
  · intro x hx k hl
    cases k with
    | true => exact k4 x hx hl
    | false =>
      have hm : x ∈ rs.filter (fun x => decide (OfScript (!(CharType.katakana == .katakana)) x)) :=
        List.mem_filter.mpr ⟨hx, decide_eq_true (Or.inl hl)⟩
      rw [k2.letters] at hm
      exact h4 x (List.mem_filter.mp hm).1 hl

theorem delimOut_char (c : Converter) (hc : c.target = .romaji) {x : Char} (hs : Simple x)
    (hx : ∀ k, ¬ OfScript k x) (hp : x ≠ 'ー') :
    ∃ y : Char, otherOut c (String.utf8EncodeChar x) = String.utf8EncodeChar y ∧ Simple y ∧ (∀ k, ¬ OfScript k y) ∧ y ≠ 'ー' ∧
      otherOut c (String.utf8EncodeChar y) = String.utf8EncodeChar y := by
  unfold otherOut
  rw [if_pos hc]
  cases hw : wideDelimFind (String.utf8EncodeChar x) with
  | none => exact ⟨x, rfl, hs, hx, hp, by rw [if_pos hc, hw]⟩
  | some n =>
    have hall : (delims.map fun p => (p.2, p.1)).all (fun q => decide (0 < q.2.toNat ∧ q.2.toNat < 128) &&
        (wideDelimFind [q.2]).isNone) = true := by decide +kernel
    have h1 := List.all_eq_true.mp hall _ (lookup_mem hw)
    simp only [Bool.and_eq_true, decide_eq_true_eq, Option.isNone_iff_eq_none] at h1
    have hsc : IsScalar n.toNat := by simp only [IsScalar]; omega
    have e : [n] = String.utf8EncodeChar (charOf n.toNat hsc) := by
      rw [encodeChar_charOf, enc, if_pos (by omega)]; simp
    refine ⟨charOf n.toNat hsc, e, ?_, ?_, ?_, ?_⟩
    · unfold Simple IsSelector IsKanaMark
      rw [charOf_toNat]
      omega
    · intro k
      unfold OfScript IsLetter IsIterationMark
      rw [charOf_toNat]
      cases k <;> simp <;> omega
    · intro he
      have := congrArg Char.toNat he
      rw [charOf_toNat] at this
      have : 'ー'.toNat = 0x30fc := by decide
      omega
    · rw [if_pos hc, ← e, h1.2]

/-- **C190** (in place, partial): a character that is no letter or mark of a script stays in its place, as delimiter in its
narrow form; the texts before and after it are converted as if they were alone. -/
theorem C190_in_place_partial (c : Converter) (hc : c.target = .romaji) (a b : List Char) (x : Char)
    (hs : ∀ y ∈ a ++ x :: b, Simple y ∧ ∀ k, ¬ IsIterationMark k y) (hx : (∀ k, ¬ IsLetter k x) ∧ x ≠ 'ー')
    (ha : Readable .hiragana a ∧ Readable .katakana a) (hb : Readable .hiragana b ∧ Readable .katakana b) :
    ∃ ra rb, c.convert (utf8Encode a) = .ok ra ∧ c.convert (utf8Encode b) = .ok rb ∧
      c.convert (utf8Encode (a ++ x :: b)) = .ok (ra ++ otherOut c (String.utf8EncodeChar x) ++ rb) := by
  have hox : ∀ k, ¬ OfScript k x := fun k h => h.elim (hx.1 k) ((hs x (by simp)).2 k)
  obtain ⟨y, hy, hys, hyo, hyp, hyy⟩ := delimOut_char c hc (hs x (by simp)).1 hox hx.2
  have step : ∀ l : List Char, (∀ y ∈ l, Simple y ∧ ∀ k, ¬ IsIterationMark k y) → Readable .hiragana l →
      ∃ m, c.convertFrom .hiragana (utf8Encode l) = .ok (utf8Encode m) ∧ (∀ y ∈ m, Simple y ∧ ¬ IsIterationMark true y) := by
    intro l hl hr
    obtain ⟨m, h1, h2, h3, h4⟩ := toRomaji_blocks c (t := .hiragana) (by decide) hc False (cs := l) (by
      intro z hz; exact ⟨(hl z hz).1, False.elim⟩) hr
    refine ⟨m, h1, fun z hz => ⟨h3 z hz, fun hm => ?_⟩⟩
    have hmem : z ∈ m.filter (fun x => decide (OfScript (!(CharType.hiragana == .katakana)) x)) :=
      List.mem_filter.mpr ⟨hz, decide_eq_true (Or.inr hm)⟩
    rw [h2.letters] at hmem
    exact (hl z (List.mem_filter.mp hmem).1).2 true hm
  obtain ⟨ma, a1, a2⟩ := step a (fun y hy => hs y (by simp [hy])) ha.1
  obtain ⟨mb, b1, b2⟩ := step b (fun y hy => hs y (by simp [hy])) hb.1
  obtain ⟨ra, rb, c1, c2, c3⟩ := C28_in_place c .hiragana (by decide) (by rw [hc]; decide) a b x (fun y hy => (hs y hy).1)
    ⟨hx.1 _, (hs x (by simp)).2 _, hx.2⟩ (.inr fun y hy => (hs y (by simp [hy])).2 _)
  rw [a1] at c1; cases c1
  rw [b1] at c2; cases c2
  obtain ⟨ra, rb, d1, d2, d3⟩ := C28_in_place c .katakana (by decide) (by rw [hc]; decide) ma mb y (by
      intro z hz
      rcases List.mem_append.mp hz with hz | hz
      · exact (a2 z hz).1
      · rcases List.mem_cons.mp hz with rfl | hz
        · exact hys
        · exact (b2 z hz).1)
    ⟨fun h => hyo _ (.inl h), fun h => hyo _ (.inr h), hyp⟩ (.inr fun z hz => (b2 z hz).2)
  have conv : ∀ s m r, c.convertFrom .hiragana s = .ok m → c.convertFrom .katakana m = .ok r → c.convert s = .ok r := by
    intro s m r h1 h2
    rw [C190_steps, hc]
    show (c.convertFrom .hiragana s).bind (c.convertFrom .katakana) = _
    rw [h1]; exact h2
  refine ⟨ra, rb, conv _ _ _ a1 d1, conv _ _ _ b1 d2, conv _ _ _ c3 ?_⟩
  rw [hyy] at d3
  rw [hy, ← d3, encode_append, encode_cons, List.append_assoc]

/-- **C190** (program): this is what kanaConvert does with a text if no source was given. -/
theorem C190_program (st : ConvState) (s : Str) :
    st.convert s = match st.source with
      | none => st.converter.convert s
      | some t => st.converter.convertFrom t s := by
  unfold ConvState.convert
  cases st.source <;> rfl

/-- Text of both scripts. -/
example : (⟨.romaji, .none, true⟩ : Converter).convert (u8!"きょうカップ、コーヒーです。漢字") =
    .ok u8!"kyoukappu,kōhīdesu.漢字" := by decide +kernel
example : (⟨.hiragana, .none, true⟩ : Converter).convert (u8!"きょうカップ、コーヒーdesu。漢字") =
    .ok u8!"きょうかっぷ、こーひーです。漢字" := by decide +kernel

/-- The hypotheses of `C190_romaji_partial` can be met. -/
example : ∃ rs : List Char, (⟨.romaji, .none, true⟩ : Converter).convert (utf8Encode "アあゃィ".toList) = .ok (utf8Encode rs) ∧
    ∀ x ∈ rs, ∀ k, ¬ IsLetter k x := by
  obtain ⟨_, rs, _, _, _, h1, h2⟩ := C190_romaji_partial ⟨.romaji, .none, true⟩ rfl ['ア', 'あ', 'ゃ', 'ィ'] (by decide) (by
      intro a x s b he
      exact absurd (show tsu false ∈ ['ア', 'あ', 'ゃ', 'ィ'] by
        rw [he]; exact List.mem_append_left _ (List.mem_append_right _ List.mem_cons_self)) (by decide)) (by
      intro a x s b he
      exact absurd (show tsu true ∈ ['ア', 'あ', 'ゃ', 'ィ'] by
        rw [he]; exact List.mem_append_left _ (List.mem_append_right _ List.mem_cons_self)) (by decide))
  exact ⟨rs, h1, h2⟩

end KT
