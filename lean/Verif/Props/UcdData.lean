import Verif.Spec.UcdData
import Verif.Props.UnicodeBlock
import Verif.Props.MorohashiId
import Verif.Props.Kanji
import Verif.Props.Str
import Verif.Props.Utf8
import Verif.Props.ColumnFile
import Verif.Props.Utf8Char
import Verif.Props.GroupData
import Verif.Props.Jukugo
import Verif.Lemmas.ConverterRead
import Verif.Lemmas.ConverterText
/-!
# C93-C98: the UCD file

Specification: `Verif/Spec/UcdData.lean`.  Model: `Verif/Model/UcdData.lean`.
-/
namespace KT
open Spec

/-! ## C93: rows -/

/-- Names and codes of links correspond, and there are enough codes. -/
def LinksMatch : List Str → List Str → Prop
  | [], _ => True
  | _ :: _, [] => False
  | n :: ns, c :: cs => (∃ code, IsUnicodeText c code ∧ KanjiEntry code n) ∧ LinksMatch ns cs

/-- The stroke cells give these strokes. -/
def StrokesMatch (row : UcdRow) (s : Strokes) : Prop :=
  if row.vStrokes = [] then processU64 row.strokes 255 = .ok s.value.toNat ∧ s.variant = 0 ∧
    1 ≤ s.value.toNat ∧ s.value.toNat ≤ 64
  else processU64 row.strokes 255 = .ok s.value.toNat ∧ processU64 row.vStrokes 255 = .ok s.variant.toNat ∧
    2 ≤ s.value.toNat ∧ s.value.toNat ≤ 64 ∧ 3 ≤ s.variant.toNat ∧ s.variant.toNat ≤ 33 ∧ s.value ≠ s.variant

/-- The row is well-formed and describes the entry. -/
structure DescribesUcd (row : UcdRow) (u : UcdRec) : Prop where
  origin : row.on ≠ [] ∨ row.kun ≠ [] ∨ row.morohashiId ≠ [] ∨ row.jSource ≠ []
  short : row.name.length ≤ 4
  name : u.name = row.name ∧ ∃ code, IsUnicodeText row.code code ∧ KanjiEntry code row.name
  radical : processU64 row.radical 0 = .ok u.radical ∧ 1 ≤ u.radical ∧ u.radical ≤ 214
  joyo : if u.isJoyo then row.joyo = u8!"Y" ∨ row.joyo = u8!"T" else row.joyo = u8!"N" ∨ row.joyo = u8!"F" ∨ row.joyo = []
  jinmei : if u.isJinmei then row.jinmei = u8!"Y" ∨ row.jinmei = u8!"T"
    else row.jinmei = u8!"N" ∨ row.jinmei = u8!"F" ∨ row.jinmei = []
  joyoOnly : u.isJoyo = true → u.isJinmei = false ∧ row.meaning ≠ [] ∧ row.linkNames = []
  links : u.links = commaFields row.linkNames ∧ LinksMatch u.links (commaFields row.linkCodes)
  linkType : row.linkType = linkTypeText u.linkType ∧ (row.linkNames = [] ↔ u.linkType = .none)
  linkCodes : row.linkNames = [] → row.linkCodes = []
  strokes : StrokesMatch row u.strokes
  sources : ((∀ c ∈ row.sources, c ∈ validSources) ∧ row.sources.Nodup) ∧
    u.sourcesText = validSources.filter (· ∈ row.sources)
  morohashi : IsMorohashi row.morohashiId u.morohashiId
  texts : u.block = row.block ∧ u.version = row.version ∧ u.pinyin = row.pinyin ∧ u.nelsonIds = row.nelsonIds ∧
    u.jSource = row.jSource ∧ u.meaning = row.meaning ∧ u.on = row.on ∧ u.kun = row.kun

theorem ucdEntry_cases (code : Nat) (name : Str) :
    (KanjiEntry code name ∧ ucdEntry code name = .ok name) ∨
    (¬ KanjiEntry code name ∧ ucdEntry code name = .throw .domain) := by
  have hk : isKanji name = true ↔ name.length > 1 ∧ name.length ≤ 8 ∧ OneOf Spec.Kanji (decode name) :=
    inWCharRange_iff_true name decides_kanji
  obtain ⟨cs, h1, h2⟩ := C07_getCode name
  rw [fromUtf8_decode] at h1
  cases h1
  unfold ucdEntry KanjiEntry
  by_cases h : isKanji name = true
  · obtain ⟨_, h4, h5⟩ := hk.mp h
    obtain ⟨c, hc, hd⟩ := h5
    have h6 : (decode name).head? = some c := by
      rcases hd with hd | ⟨m, _, hd⟩ <;> rw [hd] <;> rfl
    rw [h2, h6]
    simp only [h, Bool.not_true, Bool.false_eq_true, if_false, Res.ofOption, Res.bind, Option.getD_some]
    by_cases e : code = c
    · left
      subst e
      exact ⟨⟨h4, ⟨_, hc, hd⟩, rfl⟩, by simp⟩
    · right
      refine ⟨fun hx => e (Option.some.inj hx.2.2).symm, by simp [e]⟩
  · right
    refine ⟨fun hx => ?_, by simp [h]⟩
    obtain ⟨h4, ⟨c, hc, hd⟩, _⟩ := hx
    apply h
    rw [hk]
    refine ⟨?_, h4, ⟨c, hc, hd⟩⟩
    match name, hd with
    | [], hd => rcases hd with hd | ⟨m, _, hd⟩ <;> exact absurd hd (by simp [show decode [] = [] by decide])
    | [b], hd =>
      have key : ∀ n : Nat, n < 256 → (decode [UInt8.ofNat n]).all (fun c => !inRanges c [commonKanjiBlocks, rareKanjiBlocks]) = true := by
        decide +kernel
      have hb := key b.toNat (UInt8.toNat_lt b)
      rw [show UInt8.ofNat b.toNat = b by simp] at hb
      have hm : c ∈ decode [b] := by rcases hd with hd | ⟨m, _, hd⟩ <;> rw [hd] <;> simp
      have := List.all_eq_true.mp hb c hm
      rw [(decides_kanji c).mpr hc] at this
      cases this
    | _ :: _ :: _, _ => simp

theorem getChar32_cases (c : Str) :
    (∃ code, IsUnicodeText c code ∧ getChar32 c = .ok code) ∨
    ((∀ code, ¬ IsUnicodeText c code) ∧ getChar32 c = .throw .domain) := by
  by_cases h : ∃ code, IsUnicodeText c code
  · obtain ⟨code, h⟩ := h
    exact .inl ⟨code, h, ((C10_getChar32 c).1 code).mpr h⟩
  · have h' : ∀ code, ¬ IsUnicodeText c code := fun code hc => h ⟨code, hc⟩
    exact .inr ⟨h', (C10_getChar32 c).2 h'⟩

theorem isUnicodeText_unique {c : Str} {x y : Nat} (hx : IsUnicodeText c x) (hy : IsUnicodeText c y) : x = y := by
  have h := hx.2.2
  rw [hy.2.2] at h
  exact (Option.some.inj h).symm

/-- A code and a name together: both are right, or there's a `DomainError`. -/
theorem codeName_cases (c n : Str) :
    ((∃ code, IsUnicodeText c code ∧ KanjiEntry code n) ∧
      (getChar32 c).bind (fun code => ucdEntry code n) = .ok n) ∨
    ((¬ ∃ code, IsUnicodeText c code ∧ KanjiEntry code n) ∧
      (getChar32 c).bind (fun code => ucdEntry code n) = .throw .domain) := by
  rcases getChar32_cases c with ⟨code, h1, h2⟩ | ⟨h1, h2⟩
  · rw [h2]
    simp only [Res.bind]
    rcases ucdEntry_cases code n with ⟨h3, h4⟩ | ⟨h3, h4⟩
    · exact .inl ⟨⟨code, h1, h3⟩, h4⟩
    · refine .inr ⟨?_, h4⟩
      rintro ⟨code', h5, h6⟩
      rw [isUnicodeText_unique h5 h1] at h6
      exact h3 h6
  · rw [h2]
    exact .inr ⟨fun ⟨code, h, _⟩ => h1 code h, rfl⟩

theorem res_bind_assoc {α β γ : Type} (r : Res α) (f : α → Res β) (g : β → Res γ) :
    (r.bind f).bind g = r.bind fun x => (f x).bind g := by
  cases r <;> rfl

theorem linksLoop_cases (ns cs : List Str) :
    (LinksMatch ns cs ∧ linksLoop ns cs = .ok ns) ∨ (¬ LinksMatch ns cs ∧ linksLoop ns cs = .throw .domain) := by
  induction ns generalizing cs with
  | nil => exact .inl ⟨trivial, rfl⟩
  | cons n ns ih =>
    cases cs with
    | nil => exact .inr ⟨id, rfl⟩
    | cons c cs =>
      unfold linksLoop LinksMatch
      rw [← res_bind_assoc]
      rcases codeName_cases c n with ⟨h1, h2⟩ | ⟨h1, h2⟩
      · rw [h2]
        simp only [Res.bind]
        rcases ih cs with ⟨h3, h4⟩ | ⟨h3, h4⟩
        · rw [h4]; exact .inl ⟨⟨h1, h3⟩, rfl⟩
        · rw [h4]; exact .inr ⟨fun h => h3 h.2, rfl⟩
      · rw [h2]; exact .inr ⟨fun h => h1 h.1, rfl⟩

/-- The link cells of a row are in order. -/
def LinkCells (row : UcdRow) (joyo : Bool) : Prop :=
  if row.linkNames = [] then row.linkType = [] ∧ row.linkCodes = []
  else LinksMatch (commaFields row.linkNames) (commaFields row.linkCodes) ∧ joyo = false ∧ row.linkType ≠ []

theorem isEmpty_false_iff (s : Str) : (!s.isEmpty) = true ↔ s ≠ [] := by cases s <;> simp
theorem isEmpty_true_iff (s : Str) : s.isEmpty = true ↔ s = [] := by cases s <;> simp

theorem loadLinks_cases (row : UcdRow) (joyo : Bool) :
    (LinkCells row joyo ∧ loadLinks row joyo = .ok (commaFields row.linkNames)) ∨
    (¬ LinkCells row joyo ∧ loadLinks row joyo = .throw .domain) := by
  unfold LinkCells loadLinks
  simp only [isEmpty_false_iff, isEmpty_true_iff]
  by_cases h : row.linkNames = []
  · simp only [h, ne_eq, not_true_eq_false, if_false, if_true]
    by_cases h1 : row.linkType = []
    · by_cases h2 : row.linkCodes = []
      · left; simp only [h1, h2]; exact ⟨⟨trivial, trivial⟩, by decide⟩
      · right; simp [h1, h2]
    · right; simp [h1]
  · simp only [ne_eq, h, not_false_eq_true, if_true, if_false]
    rw [fields_eq, fields_eq]
    rcases linksLoop_cases (commaFields row.linkNames) (commaFields row.linkCodes) with ⟨h1, h2⟩ | ⟨h1, h2⟩
    · unfold commaFields at h1 h2 ⊢
      rw [h2]
      simp only [Res.bind]
      cases joyo with
      | true => right; simp
      | false =>
        by_cases h3 : row.linkType = []
        · right; simp [h3]
        · left; simp [h1, h3]
    · unfold commaFields at h1 h2 ⊢
      rw [h2]
      right; exact ⟨fun h => h1 h.1, rfl⟩

/-- Every link is new. -/
def LinksFree (d : UcdData) (jinmei : Bool) (links : List Str) : Prop :=
  jinmei = true → links.Nodup ∧ ∀ l ∈ links, d.linkedJinmei.lookup l = none

/-- The links of an entry are added. -/
def UcdData.withLinks (d : UcdData) (name : Str) (jinmei : Bool) (links : List Str) : UcdData :=
  if jinmei then { d with linkedJinmei := d.linkedJinmei ++ links.map fun l => (l, name) }
  else { d with linkedOther := links.foldl (fun m l => mapPush m l name) d.linkedOther }

theorem processLinks_cases (name : Str) (jinmei : Bool) (links : List Str) (d : UcdData) :
    (LinksFree d jinmei links ∧ d.processLinks name jinmei links = .ok (d.withLinks name jinmei links)) ∨
    (¬ LinksFree d jinmei links ∧ d.processLinks name jinmei links = .throw .domain) := by
  cases jinmei with
  | false =>
    left
    refine ⟨(fun h => nomatch h), ?_⟩
    unfold UcdData.withLinks
    simp only [Bool.false_eq_true, if_false]
    induction links generalizing d with
    | nil => rfl
    | cons l ls ih =>
      rw [UcdData.processLinks, if_pos (by rfl), ih]
      rfl
  | true =>
    unfold UcdData.withLinks LinksFree
    simp only [if_true, forall_const]
    induction links generalizing d with
    | nil => left; simp [UcdData.processLinks]
    | cons l ls ih =>
      rw [UcdData.processLinks, if_neg (by simp)]
      unfold mapEmplace
      cases hl : d.linkedJinmei.lookup l with
      | some x =>
        right
        refine ⟨fun h => ?_, rfl⟩
        have := h.2 l (by simp)
        rw [hl] at this
        cases this
      | none =>
        simp only [Option.isSome_none, Bool.false_eq_true, if_false]
        have key : (∀ x ∈ ls, List.lookup x (d.linkedJinmei ++ [(l, name)]) = none) ↔
            (l ∉ ls ∧ ∀ x ∈ ls, d.linkedJinmei.lookup x = none) := by
          constructor
          · intro h
            constructor
            · intro hm
              have := h l hm
              rw [lookup_append, lookup_single] at this
              simp [hl] at this
            · intro x hx
              have := h x hx
              rw [lookup_append] at this
              cases hx' : d.linkedJinmei.lookup x with
              | none => rfl
              | some v => rw [hx'] at this; simp at this
          · rintro ⟨h1, h2⟩ x hx
            rw [lookup_append, lookup_single, h2 x hx]
            have : (l == x) = false := by
              simp only [beq_eq_false_iff_ne, ne_eq]; intro e; exact h1 (e ▸ hx)
            rw [this]; rfl
        rcases ih { d with linkedJinmei := d.linkedJinmei ++ [(l, name)] } with ⟨⟨h1, h2⟩, h3⟩ | ⟨h1, h2⟩
        · left
          rw [h3]
          have := key.mp h2
          refine ⟨⟨List.nodup_cons.mpr ⟨this.1, h1⟩, ?_⟩, by simp⟩
          intro x hx
          rcases List.mem_cons.mp hx with rfl | hx
          · exact hl
          · exact this.2 x hx
        · right
          rw [h2]
          refine ⟨?_, rfl⟩
          rintro ⟨h4, h5⟩
          obtain ⟨h6, h7⟩ := List.nodup_cons.mp h4
          exact h1 ⟨h7, key.mpr ⟨h6, fun x hx => h5 x (by simp [hx])⟩⟩

/-! ### The entry made of a row -/

theorem ucdStrokes_cases (row : UcdRow) :
    (∃ s, StrokesMatch row s ∧ ucdStrokes row = .ok s) ∨
    ((∀ s, ¬ StrokesMatch row s) ∧ domainErrors (ucdStrokes row) = .throw .domain) := by
  unfold StrokesMatch ucdStrokes
  simp only [isEmpty_true_iff]
  have u8 : ∀ v, v ≤ 255 → (UInt8.ofNat v).toNat = v := by
    intro v h; rw [UInt8.toNat_ofNat']; exact Nat.mod_eq_of_lt (by omega)
  by_cases hv : row.vStrokes = []
  · simp only [hv, if_true]
    rcases C88_limit row.strokes 255 with h | ⟨v, h, _, h1⟩
    · right; rw [h]; exact ⟨fun s hs => (by cases hs.1), rfl⟩
    · have h1 := h1 (by decide)
      rw [h]
      simp only [Res.bind, Res.ok.injEq]
      by_cases hr : 1 ≤ v ∧ v ≤ 64
      · left
        refine ⟨⟨UInt8.ofNat v, 0⟩, ?_, (C39_one _).1 (by rw [u8 v h1]; exact hr)⟩
        simp only [u8 v h1]
        exact ⟨trivial, trivial, hr⟩
      · right
        rw [(C39_one _).2 (by rw [u8 v h1]; exact hr)]
        exact ⟨fun s hs => hr (by rw [hs.1]; exact hs.2.2), rfl⟩
  · simp only [hv, if_false]
    rcases C88_limit row.strokes 255 with h | ⟨v, h, _, h1⟩
    · right; rw [h]; exact ⟨fun s hs => (by cases hs.1), rfl⟩
    · have h1 := h1 (by decide)
      rw [h]
      simp only [Res.bind, Res.ok.injEq]
      rcases C88_limit row.vStrokes 255 with h' | ⟨w, h', _, h2⟩
      · right; rw [h']; exact ⟨fun s hs => (by cases hs.2.1), rfl⟩
      · have h2 := h2 (by decide)
        rw [h']
        simp only [Res.ok.injEq]
        have three := C39_two (UInt8.ofNat v) (UInt8.ofNat w)
        rw [u8 v h1, u8 w h2] at three
        by_cases hr : 2 ≤ v ∧ v ≤ 64 ∧ 3 ≤ w ∧ w ≤ 33
        · by_cases he : UInt8.ofNat v = UInt8.ofNat w
          · right
            rw [three.2.2 ⟨hr.1, hr.2.1, hr.2.2.1, hr.2.2.2, he⟩]
            refine ⟨fun s hs => ?_, rfl⟩
            obtain ⟨e1, e2, _, _, _, _, e3⟩ := hs
            apply e3
            rw [e1, e2] at he
            simpa using he
          · left
            refine ⟨⟨UInt8.ofNat v, UInt8.ofNat w⟩, ?_, three.1 ⟨hr.1, hr.2.1, hr.2.2.1, hr.2.2.2, he⟩⟩
            simp only [u8 v h1, u8 w h2]
            exact ⟨trivial, trivial, hr.1, hr.2.1, hr.2.2.1, hr.2.2.2, he⟩
        · right
          rw [three.2.1 hr]
          refine ⟨fun s hs => hr ?_, rfl⟩
          obtain ⟨e1, e2, a, b, c, e, _⟩ := hs
          rw [e1, e2]; exact ⟨a, b, c, e⟩

theorem strokesMatch_unique {row : UcdRow} {s t : Strokes} (hs : StrokesMatch row s) (ht : StrokesMatch row t) : s = t := by
  unfold StrokesMatch at hs ht
  obtain ⟨a, b⟩ := s
  obtain ⟨a', b'⟩ := t
  split at hs
  · rename_i h
    rw [if_pos h] at ht
    have h1 := hs.1
    rw [ht.1] at h1
    simp only [Res.ok.injEq, UInt8.toNat_inj] at h1
    simp only at hs ht
    rw [h1, hs.2.1, ht.2.1]
  · rename_i h
    rw [if_neg h] at ht
    have h1 := hs.1
    have h2 := hs.2.1
    rw [ht.1] at h1
    rw [ht.2.1] at h2
    simp only [Res.ok.injEq, UInt8.toNat_inj] at h1 h2
    rw [h1, h2]

theorem linkTypeFromString_cases (s : Str) :
    (∃ t, s = linkTypeText t ∧ linkTypeFromString s = .ok t) ∨
    ((∀ t, s ≠ linkTypeText t) ∧ linkTypeFromString s = .throw .domain) := by
  by_cases h : ∃ t, s = linkTypeText t
  · obtain ⟨t, rfl⟩ := h
    exact .inl ⟨t, rfl, by cases t <;> decide⟩
  · refine .inr ⟨fun t ht => h ⟨t, ht⟩, ?_⟩
    have hn : ∀ t, (s == linkTypeText t) = false := fun t => by
      simp only [beq_eq_false_iff_ne, ne_eq]; exact fun e => h ⟨t, e⟩
    have h0 : s.isEmpty = false := by
      cases s with
      | nil => exact absurd ⟨.none, rfl⟩ h
      | cons => rfl
    unfold linkTypeFromString
    rw [h0, if_neg (by simp)]
    have : linkTypeNames.lookup s = none := by
      have a1 := hn .compatibilityR
      have a2 := hn .definitionR
      have a3 := hn .jinmeiR
      have a4 := hn .semanticR
      have a5 := hn .simplifiedR
      have a6 := hn .traditionalR
      have a7 := hn .compatibility
      have a8 := hn .definition
      have a9 := hn .jinmei
      have a10 := hn .simplified
      have a11 := hn .traditional
      simp only [linkTypeText] at a1 a2 a3 a4 a5 a6 a7 a8 a9 a10 a11
      simp only [linkTypeNames, List.lookup_cons, a1, a2, a3, a4, a5, a6, a7, a8, a9, a10, a11, List.lookup_nil]
    rw [this]

theorem linkTypeText_inj {a b : LinkType} (h : linkTypeText a = linkTypeText b) : a = b := by
  revert h
  cases a <;> cases b <;> decide

/-- The source letters and the flags determine the stored byte. -/
theorem sources_determined (u v : Ucd) (h : u.sourcesText = v.sourcesText) (h1 : u.isJoyo = v.isJoyo)
    (h2 : u.isJinmei = v.isJinmei) : u.sources = v.sources := by
  have mem : ∀ (w : Ucd) (p : UInt8 × UInt8), p ∈ sourceLetters → (p.1 ∈ w.sourcesText ↔ w.sources &&& p.2 ≠ 0) := by
    intro w p hp
    unfold Ucd.sourcesText
    rw [List.mem_filterMap]
    constructor
    · rintro ⟨q, hq, he⟩
      split at he
      · rename_i hne
        have : ∀ p ∈ sourceLetters, ∀ q ∈ sourceLetters, q.1 = p.1 → q = p := by decide
        rw [← this p hp q hq (Option.some.inj he)]; exact hne
      · cases he
    · intro hne
      exact ⟨p, hp, by rw [if_pos hne]⟩
  have bits : ∀ p ∈ sourceLetters, (u.sources &&& p.2 ≠ 0 ↔ v.sources &&& p.2 ≠ 0) := by
    intro p hp
    rw [← mem u p hp, ← mem v p hp, h]
  have rebuild : ∀ n : Nat, n < 256 → UInt8.ofNat n =
      (if UInt8.ofNat n &&& 1 ≠ 0 then 1 else 0) ||| (if UInt8.ofNat n &&& 2 ≠ 0 then 2 else 0) |||
      (if UInt8.ofNat n &&& 4 ≠ 0 then 4 else 0) ||| (if UInt8.ofNat n &&& 8 ≠ 0 then 8 else 0) |||
      (if UInt8.ofNat n &&& 16 ≠ 0 then 16 else 0) ||| (if UInt8.ofNat n &&& 32 ≠ 0 then 32 else 0) |||
      (if UInt8.ofNat n &&& 64 ≠ 0 then 64 else 0) ||| (if UInt8.ofNat n &&& 128 ≠ 0 then 128 else 0) := by
    decide +kernel
  have ru := rebuild u.sources.toNat (UInt8.toNat_lt _)
  have rv := rebuild v.sources.toNat (UInt8.toNat_lt _)
  rw [UInt8.ofNat_toNat] at ru rv
  have b1 := bits (0x47, 1) (by decide)
  have b2 := bits (0x48, 2) (by decide)
  have b3 := bits (0x4a, 4) (by decide)
  have b4 := bits (0x4b, 8) (by decide)
  have b5 := bits (0x54, 16) (by decide)
  have b6 := bits (0x56, 32) (by decide)
  have b7 : u.sources &&& 64 ≠ 0 ↔ v.sources &&& 64 ≠ 0 := by
    unfold Ucd.isJoyo at h1
    simp only [decide_eq_decide] at h1
    exact h1
  have b8 : u.sources &&& 128 ≠ 0 ↔ v.sources &&& 128 ≠ 0 := by
    unfold Ucd.isJinmei at h2
    simp only [decide_eq_decide] at h2
    exact h2
  simp only at b1 b2 b3 b4 b5 b6
  rw [ru, rv]
  simp only [b1, b2, b3, b4, b5, b6, b7, b8]

/-- What `makeUcd` makes. -/
structure MadeUcd (row : UcdRow) (radical : Nat) (joyo jinmei : Bool) (links : List Str) (u : UcdRec) : Prop where
  name : u.name = row.name ∧ ∃ code, IsUnicodeText row.code code ∧ KanjiEntry code row.name
  radical : u.radical = radical
  links : u.links = links
  linkType : row.linkType = linkTypeText u.linkType
  strokes : StrokesMatch row u.strokes
  sources : ((∀ c ∈ row.sources, c ∈ validSources) ∧ row.sources.Nodup) ∧
    u.sourcesText = validSources.filter (· ∈ row.sources) ∧ u.isJoyo = joyo ∧ u.isJinmei = jinmei
  morohashi : IsMorohashi row.morohashiId u.morohashiId
  texts : u.block = row.block ∧ u.version = row.version ∧ u.pinyin = row.pinyin ∧ u.nelsonIds = row.nelsonIds ∧
    u.jSource = row.jSource ∧ u.meaning = row.meaning ∧ u.on = row.on ∧ u.kun = row.kun

theorem MadeUcd.unique {row : UcdRow} {radical : Nat} {joyo jinmei : Bool} {links : List Str} {u v : UcdRec}
    (hu : MadeUcd row radical joyo jinmei links u) (hv : MadeUcd row radical joyo jinmei links v) : u = v := by
  obtain ⟨a1, a2, a3, a4, a5, a6, a7, a8⟩ := hu
  obtain ⟨b1, b2, b3, b4, b5, b6, b7, b8⟩ := hv
  have h1 := a1.1.trans b1.1.symm
  have h2 := a2.trans b2.symm
  have h3 := a3.trans b3.symm
  have h4 := linkTypeText_inj (a4.symm.trans b4)
  have h5 := strokesMatch_unique a5 b5
  have h6 := sources_determined u.toUcd v.toUcd (a6.2.1.trans b6.2.1.symm) (a6.2.2.1.trans b6.2.2.1.symm)
    (a6.2.2.2.trans b6.2.2.2.symm)
  have h7 := C37_unique _ _ _ a7 b7
  obtain ⟨c1, c2, c3, c4, c5, c6, c7, c8⟩ := a8
  obtain ⟨e1, e2, e3, e4, e5, e6, e7, e8⟩ := b8
  obtain ⟨⟨n, s, t, l, k⟩, _, _, _, _, _, _, _, _, _, _⟩ := u
  obtain ⟨⟨n', s', t', l', k'⟩, _, _, _, _, _, _, _, _, _, _⟩ := v
  simp_all

theorem makeUcd_cases (row : UcdRow) (radical : Nat) (joyo jinmei : Bool) (links : List Str) :
    (∃ u, MadeUcd row radical joyo jinmei links u ∧ makeUcd row radical joyo jinmei links = .ok u) ∨
    ((∀ u, ¬ MadeUcd row radical joyo jinmei links u) ∧
      domainErrors (makeUcd row radical joyo jinmei links) = .throw .domain) := by
  unfold makeUcd
  rcases ucdStrokes_cases row with ⟨strokes, s1, s2⟩ | ⟨s1, s2⟩
  case inr =>
    right
    refine ⟨fun u h => s1 _ h.strokes, ?_⟩
    cases h : ucdStrokes row with
    | ok x => rw [h] at s2; cases s2
    | ub => rw [h] at s2; cases s2
    | throw e => rfl
  rw [s2]
  simp only [Res.bind]
  change (∃ u, _ ∧ (getChar32 row.code).bind (fun code => (ucdEntry code row.name).bind _) = .ok u) ∨
    (_ ∧ domainErrors ((getChar32 row.code).bind (fun code => (ucdEntry code row.name).bind _)) = .throw .domain)
  rw [← res_bind_assoc]
  rcases codeName_cases row.code row.name with ⟨n1, n2⟩ | ⟨n1, n2⟩
  case inr => rw [n2]; exact .inr ⟨fun u h => n1 h.name.2, rfl⟩
  rw [n2]
  rcases linkTypeFromString_cases row.linkType with ⟨t, t1, t2⟩ | ⟨t1, t2⟩
  case inr => rw [t2]; exact .inr ⟨fun u h => t1 _ h.linkType, rfl⟩
  rw [t2]
  by_cases hs : (∀ c ∈ row.sources, c ∈ validSources) ∧ row.sources.Nodup
  case neg =>
    rw [(C46_accepted row.sources joyo jinmei).2 hs]
    exact .inr ⟨fun u h => hs h.sources.1, rfl⟩
  obtain ⟨r, hr⟩ := (C46_accepted row.sources joyo jinmei).1 hs
  rw [hr]
  rcases C37_total row.morohashiId with ⟨x, hx⟩ | hx
  case inr =>
    rw [hx]
    refine .inr ⟨fun u h => ?_, rfl⟩
    rw [(C37_exact _ _).mpr h.morohashi] at hx
    cases hx
  rw [hx]
  refine .inl ⟨_, ⟨⟨rfl, n1⟩, rfl, rfl, t1, s1, ⟨hs, C46_printed row.sources joyo jinmei _ hr⟩, (C37_exact _ _).mp hx,
    rfl, rfl, rfl, rfl, rfl, rfl, rfl, rfl⟩, rfl⟩

theorem linkTypeText_nil (t : LinkType) : linkTypeText t = [] ↔ t = .none := by
  cases t <;> decide

theorem processBool_text (s : Str) (b : Bool) :
    (if b then s = u8!"Y" ∨ s = u8!"T" else s = u8!"N" ∨ s = u8!"F" ∨ s = []) ↔ processBool s = .ok b := by
  cases b with
  | true => exact (C88_bool s).1.symm
  | false => exact (C88_bool s).2.1.symm

theorem processBool_cases (s : Str) : (∃ b, processBool s = .ok b) ∨ processBool s = .throw .domain := by
  unfold processBool
  repeat' split
  all_goals first | exact .inl ⟨_, rfl⟩ | exact .inr rfl

/-- The conditions in the order in which they're checked. -/
theorem describesUcd_iff (row : UcdRow) (u : UcdRec) : DescribesUcd row u ↔
    (row.on ≠ [] ∨ row.kun ≠ [] ∨ row.morohashiId ≠ [] ∨ row.jSource ≠ []) ∧ row.name.length ≤ 4 ∧
    ∃ radical joyo jinmei, processU64 row.radical 0 = .ok radical ∧ (1 ≤ radical ∧ radical ≤ 214) ∧
      processBool row.joyo = .ok joyo ∧ processBool row.jinmei = .ok jinmei ∧
      (joyo = true → jinmei = false) ∧ (joyo = true → row.meaning ≠ []) ∧ LinkCells row joyo ∧
      MadeUcd row radical joyo jinmei (commaFields row.linkNames) u := by
  constructor
  · intro h
    refine ⟨h.origin, h.short, u.radical, u.isJoyo, u.isJinmei, h.radical.1, h.radical.2, (processBool_text _ _).mp h.joyo,
      (processBool_text _ _).mp h.jinmei, fun hj => (h.joyoOnly hj).1, fun hj => (h.joyoOnly hj).2.1, ?_, ?_⟩
    · unfold LinkCells
      split
      · rename_i hn
        exact ⟨by rw [h.linkType.1, (h.linkType.2.mp hn)]; rfl, h.linkCodes hn⟩
      · rename_i hn
        refine ⟨by rw [← h.links.1]; exact h.links.2, ?_, ?_⟩
        · cases hj : u.isJoyo with
          | false => rfl
          | true => exact absurd (h.joyoOnly hj).2.2 hn
        · intro e
          rw [h.linkType.1, linkTypeText_nil, ← h.linkType.2] at e
          exact hn e
    · exact ⟨h.name, rfl, h.links.1, h.linkType.1, h.strokes, ⟨h.sources.1, h.sources.2, rfl, rfl⟩, h.morohashi, h.texts⟩
  · rintro ⟨h1, h2, radical, joyo, jinmei, h3, h4, h5, h6, h7, h8, h9, m⟩
    have mj := m.sources.2.2.1
    have mn := m.sources.2.2.2
    have mr := m.radical
    subst mj mn mr
    unfold LinkCells at h9
    refine ⟨h1, h2, m.name, ⟨h3, h4⟩, (processBool_text _ _).mpr h5, (processBool_text _ _).mpr h6, ?_, ⟨m.links, ?_⟩,
      ⟨m.linkType, ?_⟩, ?_, m.strokes, ⟨m.sources.1, m.sources.2.1⟩, m.morohashi, m.texts⟩
    · intro hj
      refine ⟨h7 hj, h8 hj, ?_⟩
      split at h9
      · assumption
      · rw [hj] at h9; exact absurd h9.2.1 (by simp)
    · rw [m.links]
      split at h9
      · rename_i e; rw [e]; trivial
      · exact h9.1
    · rw [← linkTypeText_nil, ← m.linkType]
      split at h9
      · rename_i e; exact ⟨fun _ => h9.1, fun _ => e⟩
      · rename_i e; exact ⟨fun x => absurd x e, fun x => absurd x h9.2.2⟩
    · intro e
      rw [if_pos e] at h9
      exact h9.2

/-- The data with one more entry. -/
def UcdData.added (d : UcdData) (u : UcdRec) : UcdData :=
  { d.withLinks u.name u.isJinmei u.links with map := d.map ++ [(u.name, u)] }

/-- A row is accepted exactly if it is well-formed, its name is new and (for "jinmei") its links are new; the
entry it describes and its links are added.  Otherwise there is a `DomainError`. -/
theorem C93_row (d : UcdData) (row : UcdRow) :
    (∃ u, DescribesUcd row u ∧ d.map.lookup u.name = none ∧ LinksFree d u.isJinmei u.links ∧
      d.loadRow row = .ok (d.added u)) ∨
    ((¬ ∃ u, DescribesUcd row u ∧ d.map.lookup u.name = none ∧ LinksFree d u.isJinmei u.links) ∧
      d.loadRow row = .throw .domain) := by
  simp only [describesUcd_iff]
  unfold UcdData.loadRow
  by_cases h1 : row.on ≠ [] ∨ row.kun ≠ [] ∨ row.morohashiId ≠ [] ∨ row.jSource ≠ []
  case neg =>
    right
    refine ⟨fun ⟨u, h, _⟩ => h1 h.1, ?_⟩
    simp only [not_or, ne_eq, Classical.not_not] at h1
    rw [h1.1, h1.2.1, h1.2.2.1, h1.2.2.2]; rfl
  rw [if_neg (by
    simp only [Bool.and_eq_true, isEmpty_true_iff]
    rintro ⟨⟨⟨a, b⟩, c⟩, e⟩
    rcases h1 with h | h | h | h
    · exact h a
    · exact h b
    · exact h c
    · exact h e)]
  by_cases h2 : row.name.length ≤ 4
  case neg => rw [if_pos (by omega)]; exact .inr ⟨fun ⟨u, h, _⟩ => h2 h.2.1, rfl⟩
  rw [if_neg (by omega)]
  rcases C88_limit row.radical 0 with h3 | ⟨radical, h3, _⟩
  · rw [h3]
    refine .inr ⟨?_, rfl⟩
    rintro ⟨u, ⟨_, _, r, j, n, e, _⟩, _⟩
    cases e
  rw [h3]
  simp only [Res.bind]
  by_cases h4 : 1 ≤ radical ∧ radical ≤ 214
  case neg =>
    rw [if_pos (by omega)]
    refine .inr ⟨?_, rfl⟩
    rintro ⟨u, ⟨_, _, r, j, n, e, e', _⟩, _⟩
    cases e
    exact h4 e'
  rw [if_neg (by omega)]
  rcases processBool_cases row.joyo with ⟨joyo, h5⟩ | h5
  case inr =>
    rw [h5]
    refine .inr ⟨?_, rfl⟩
    rintro ⟨u, ⟨_, _, r, j, n, _, _, e, _⟩, _⟩
    cases e
  rw [h5]
  rcases processBool_cases row.jinmei with ⟨jinmei, h6⟩ | h6
  case inr =>
    rw [h6]
    refine .inr ⟨?_, rfl⟩
    rintro ⟨u, ⟨_, _, r, j, n, _, _, _, e, _⟩, _⟩
    cases e
  rw [h6]
  simp only []
  by_cases h7 : joyo = true → jinmei = false
  case neg =>
    rw [if_pos (by cases joyo <;> cases jinmei <;> simp_all)]
    refine .inr ⟨?_, rfl⟩
    rintro ⟨u, ⟨_, _, r, j, n, _, _, e1, e2, e, _⟩, _⟩
    cases e1; cases e2
    exact h7 e
  rw [if_neg (by cases joyo <;> cases jinmei <;> simp_all)]
  by_cases h8 : joyo = true → row.meaning ≠ []
  case neg =>
    rw [if_pos (by cases joyo <;> simp_all)]
    refine .inr ⟨?_, rfl⟩
    rintro ⟨u, ⟨_, _, r, j, n, _, _, e1, e2, _, e, _⟩, _⟩
    cases e1
    exact h8 e
  rw [if_neg (by cases joyo <;> simp_all)]
  rcases loadLinks_cases row joyo with ⟨h9, h10⟩ | ⟨h9, h10⟩
  case inr =>
    rw [h10]
    refine .inr ⟨?_, rfl⟩
    rintro ⟨u, ⟨_, _, r, j, n, _, _, e1, e2, _, _, e, _⟩, _⟩
    cases e1
    exact h9 e
  rw [h10]
  simp only []
  rcases processLinks_cases row.name jinmei (commaFields row.linkNames) d with ⟨h11, h12⟩ | ⟨h11, h12⟩
  case inr =>
    rw [h12]
    refine .inr ⟨?_, rfl⟩
    rintro ⟨u, ⟨_, _, r, j, n, _, _, e1, e2, _, _, _, m⟩, _, e⟩
    cases e2
    rw [m.links, m.sources.2.2.2] at e
    exact h11 e
  rw [h12]
  simp only []
  rcases makeUcd_cases row radical joyo jinmei (commaFields row.linkNames) with ⟨u, m, h13⟩ | ⟨m, h13⟩
  case inr =>
    rw [h13]
    refine .inr ⟨?_, rfl⟩
    rintro ⟨u, ⟨_, _, r, j, n, e0, _, e1, e2, _, _, _, e⟩, _⟩
    cases e0; cases e1; cases e2
    exact m u e
  rw [h13]
  simp only [domainErrors]
  have hm : (d.withLinks row.name jinmei (commaFields row.linkNames)).map = d.map := by
    unfold UcdData.withLinks; split <;> rfl
  unfold mapEmplace
  rw [hm]
  cases hl : d.map.lookup row.name with
  | some x =>
    rw [if_pos (by rfl)]
    refine .inr ⟨?_, rfl⟩
    rintro ⟨v, ⟨_, _, r, j, n, e0, _, e1, e2, _, _, _, e⟩, e', _⟩
    rw [e.name.1, hl] at e'
    cases e'
  | none =>
    rw [if_neg (by simp)]
    refine .inl ⟨u, ⟨h1, h2, radical, joyo, jinmei, rfl, h4, rfl, rfl, h7, h8, h9, m⟩, ?_, ?_, ?_⟩
    · rw [m.name.1]; exact hl
    · rw [m.links, m.sources.2.2.2]; exact h11
    · unfold UcdData.added
      rw [m.name.1, m.links, m.sources.2.2.2]

/-- The entry is determined by the row. -/
theorem C93_unique (row : UcdRow) (u v : UcdRec) (hu : DescribesUcd row u) (hv : DescribesUcd row v) : u = v := by
  rw [describesUcd_iff] at hu hv
  obtain ⟨_, _, r, j, n, e1, _, e2, e3, _, _, _, m⟩ := hu
  obtain ⟨_, _, r', j', n', e1', _, e2', e3', _, _, _, m'⟩ := hv
  rw [e1] at e1'; rw [e2] at e2'; rw [e3] at e3'
  cases e1'; cases e2'; cases e3'
  exact m.unique m'

/-- 逸 (U+9038). -/
def sampleJoyo : UcdRow :=
  { code := u8!"9038", name := u8!"逸", radical := u8!"162", strokes := u8!"11", vStrokes := u8!"12", sources := u8!"GJ"
    joyo := u8!"Y", meaning := u8!"deviate", on := u8!"ITSU ICHI", kun := u8!"HAYARU" }

/-- U+FA67 (variant of U+9038), marked as jinmei or not. -/
def sampleVariant (jinmei : Str) : UcdRow :=
  { code := u8!"FA67", name := [0xef, 0xa9, 0xa7], radical := u8!"162", strokes := u8!"12", jinmei
    linkCodes := u8!"9038", linkNames := u8!"逸", linkType := u8!"Jinmei*", jSource := u8!"J3-7C4D" }

example : (∃ d, UcdData.load [sampleJoyo, sampleVariant (u8!"Y")] {} = .ok d ∧ d.map.length = 2 ∧
      d.linkedJinmei = [(u8!"逸", [0xef, 0xa9, 0xa7])] ∧ d.linkedOther = []) := ⟨_, rfl, by decide +kernel⟩

/-! ## C94: link names and link codes -/

/-- The full property: names and codes of the links correspond one to one. -/
def C94_statement : Prop := ∀ (d d' : UcdData) (row : UcdRow), d.loadRow row = .ok d' →
  (commaFields row.linkCodes).length = (commaFields row.linkNames).length

/-- More codes than names are accepted. -/
theorem C94_violated : ¬ C94_statement := by
  intro h
  have := h {} _ { sampleVariant (u8!"Y") with linkCodes := u8!"9038,4E00,xyz" } rfl
  revert this
  decide +kernel

theorem LinksMatch.at {ns cs : List Str} (h : LinksMatch ns cs) :
    ns.length ≤ cs.length ∧ ∀ (i : Nat) n, ns[i]? = some n → ∃ c code, cs[i]? = some c ∧ IsUnicodeText c code ∧ KanjiEntry code n := by
  induction ns generalizing cs with
  | nil => exact ⟨by simp, by simp⟩
  | cons n ns ih =>
    cases cs with
    | nil => exact h.elim
    | cons c cs =>
      obtain ⟨⟨code, h1, h2⟩, h3⟩ := h
      obtain ⟨h4, h5⟩ := ih h3
      refine ⟨by simp; omega, ?_⟩
      intro i m hm
      cases i with
      | zero => simp at hm; subst hm; exact ⟨c, code, rfl, h1, h2⟩
      | succ i => exact h5 i m (by simpa using hm)

/-- Every link name has its code (there may be more codes). -/
theorem C94_links_partial (d d' : UcdData) (row : UcdRow) (h : d.loadRow row = .ok d') :
    (commaFields row.linkNames).length ≤ (commaFields row.linkCodes).length ∧
    ∀ (i : Nat) n, (commaFields row.linkNames)[i]? = some n →
      ∃ c code, (commaFields row.linkCodes)[i]? = some c ∧ IsUnicodeText c code ∧ KanjiEntry code n := by
  rcases C93_row d row with ⟨u, h1, _⟩ | ⟨_, h1⟩
  · have := h1.links.2
    rw [h1.links.1] at this
    exact this.at
  · rw [h1] at h; cases h

/-! ## C95: the whole file -/

/-- The rows describe these entries, in order. -/
def RowsDescribe : List UcdRow → List UcdRec → Prop
  | [], [] => True
  | r :: rs, u :: us => DescribesUcd r u ∧ RowsDescribe rs us
  | _, _ => False

/-- No name occurs twice and no kanji is linked to by two "jinmei" entries. -/
def UcdDistinct (us : List UcdRec) : Prop :=
  (us.map fun u => u.name).Nodup ∧ ((us.filter fun u => u.isJinmei).flatMap fun u => u.links).Nodup

/-- The data has exactly these entries and their links. -/
structure UcdContents (d : UcdData) (us : List UcdRec) : Prop where
  map : d.map = us.map fun u => (u.name, u)
  jinmei : d.linkedJinmei = ucdJinmeiLinks us
  other : ∀ l, listAt d.linkedOther l = ucdOtherLinks us l

theorem listAt_pushAll (links : List Str) (name l : Str) (m : List (Str × List Str)) :
    listAt (links.foldl (fun m l => mapPush m l name) m) l =
      listAt m l ++ (links.filter fun x => x == l).map fun _ => name := by
  induction links generalizing m with
  | nil => simp
  | cons x links ih =>
    rw [List.foldl_cons, ih, listAt_mapPush, List.filter_cons]
    cases x == l <;> simp

theorem UcdContents.add {d : UcdData} {us : List UcdRec} (h : UcdContents d us) (u : UcdRec) :
    UcdContents (d.added u) (us ++ [u]) := by
  unfold UcdData.added UcdData.withLinks
  cases hj : u.isJinmei with
  | true =>
    refine ⟨by simp [h.map], ?_, ?_⟩
    · simp only [if_true, h.jinmei, ucdJinmeiLinks, List.filter_append, List.flatMap_append, List.filter_cons, hj,
        List.filter_nil, List.flatMap_cons, List.flatMap_nil, List.append_nil]
    · intro l
      simp only [if_true, h.other, ucdOtherLinks, List.filter_append, List.filter_cons, hj, List.filter_nil,
        Bool.not_true, Bool.false_eq_true, if_false, List.append_nil]
  | false =>
    refine ⟨by simp [h.map], ?_, ?_⟩
    · simp only [Bool.false_eq_true, if_false, h.jinmei, ucdJinmeiLinks, List.filter_append, List.filter_cons, hj,
        List.filter_nil, List.append_nil]
    · intro l
      simp only [Bool.false_eq_true, if_false, listAt_pushAll, h.other, ucdOtherLinks, List.filter_append,
        List.flatMap_append, List.filter_cons, hj, List.filter_nil, Bool.not_false, if_true, List.flatMap_cons,
        List.flatMap_nil, List.append_nil]

theorem jinmeiLinks_keys (us : List UcdRec) :
    (ucdJinmeiLinks us).map (·.1) = (us.filter fun u => u.isJinmei).flatMap fun u => u.links := by
  unfold ucdJinmeiLinks
  induction us.filter fun u => u.isJinmei with
  | nil => rfl
  | cons u l ih => simp only [List.flatMap_cons, List.map_append, ih, List.map_map, Function.comp_def, List.map_id']

/-- The entry may be added. -/
theorem distinct_snoc {d : UcdData} {us : List UcdRec} (hc : UcdContents d us) (hd : UcdDistinct us) (u : UcdRec) :
    UcdDistinct (us ++ [u]) ↔ d.map.lookup u.name = none ∧ LinksFree d u.isJinmei u.links := by
  have h1 : d.map.lookup u.name = none ↔ u.name ∉ us.map fun u => u.name := by
    rw [lookup_none, hc.map, List.map_map]; rfl
  have h2 : ∀ l, d.linkedJinmei.lookup l = none ↔ l ∉ (us.filter fun u => u.isJinmei).flatMap fun u => u.links := by
    intro l; rw [lookup_none, hc.jinmei, jinmeiLinks_keys]
  unfold UcdDistinct LinksFree
  rw [h1]
  simp only [h2]
  rw [List.map_append, List.nodup_append, List.filter_append, List.flatMap_append, List.nodup_append]
  constructor
  · rintro ⟨⟨_, _, a⟩, _, b, c⟩
    refine ⟨fun hm => a _ hm u.name (by simp) rfl, ?_⟩
    intro hj
    simp only [List.filter_cons, hj, if_true, List.filter_nil, List.flatMap_cons, List.flatMap_nil, List.append_nil] at b c
    exact ⟨b, fun l hl hm => c l hm l hl rfl⟩
  · rintro ⟨a, b⟩
    refine ⟨⟨hd.1, by simp, ?_⟩, hd.2, ?_, ?_⟩
    · intro x hx y hy e
      simp only [List.map_cons, List.map_nil, List.mem_singleton] at hy
      rw [e, hy] at hx
      exact a hx
    · cases hj : u.isJinmei with
      | false => simp [hj]
      | true => simpa [hj] using (b hj).1
    · intro x hx y hy e
      cases hj : u.isJinmei with
      | false => simp [hj] at hy
      | true =>
        simp [hj] at hy
        rw [e] at hx
        exact (b hj).2 y hy hx

theorem distinct_prefix {a b : List UcdRec} (h : UcdDistinct (a ++ b)) : UcdDistinct a := by
  unfold UcdDistinct at h ⊢
  rw [List.map_append, List.nodup_append, List.filter_append, List.flatMap_append, List.nodup_append] at h
  exact ⟨h.1.1, h.2.1⟩

theorem load_cases (rows : List UcdRow) (d : UcdData) (us₀ : List UcdRec) (hc : UcdContents d us₀) (hd : UcdDistinct us₀) :
    (∃ us d', RowsDescribe rows us ∧ UcdDistinct (us₀ ++ us) ∧ UcdData.load rows d = .ok d' ∧ UcdContents d' (us₀ ++ us)) ∨
    ((¬ ∃ us, RowsDescribe rows us ∧ UcdDistinct (us₀ ++ us)) ∧ UcdData.load rows d = .throw .domain) := by
  induction rows generalizing d us₀ with
  | nil => exact .inl ⟨[], d, trivial, by simpa using hd, rfl, by simpa using hc⟩
  | cons r rs ih =>
    unfold UcdData.load
    rcases C93_row d r with ⟨u, h1, h2, h3, h4⟩ | ⟨h1, h2⟩
    · rw [h4]
      simp only [Res.bind]
      rcases ih (d.added u) (us₀ ++ [u]) (hc.add u) ((distinct_snoc hc hd u).mpr ⟨h2, h3⟩) with
        ⟨us, d', a1, a2, a3, a4⟩ | ⟨a1, a2⟩
      · refine .inl ⟨u :: us, d', ⟨h1, a1⟩, by simpa using a2, a3, by simpa using a4⟩
      · refine .inr ⟨?_, a2⟩
        rintro ⟨us, b1, b2⟩
        cases us with
        | nil => exact b1.elim
        | cons v us =>
          rw [C93_unique r v u b1.1 h1] at b2
          exact a1 ⟨us, b1.2, by simpa using b2⟩
    · rw [h2]
      refine .inr ⟨?_, rfl⟩
      rintro ⟨us, b1, b2⟩
      cases us with
      | nil => exact b1.elim
      | cons v us =>
        have b3 : UcdDistinct (us₀ ++ [v]) := distinct_prefix (b := us) (by simpa using b2)
        obtain ⟨b4, b5⟩ := (distinct_snoc hc hd v).mp b3
        exact h1 ⟨v, b1.1, b4, b5⟩

/-- A file is loaded exactly if every row is well-formed, no name occurs twice and no kanji is linked to by two
"jinmei" entries; then the data has the entries described by the rows and their links.  Otherwise there is a
`DomainError`. -/
theorem C95_load (rows : List UcdRow) :
    (∃ us d, RowsDescribe rows us ∧ UcdDistinct us ∧ UcdData.load rows {} = .ok d ∧ UcdContents d us) ∨
    ((¬ ∃ us, RowsDescribe rows us ∧ UcdDistinct us) ∧ UcdData.load rows {} = .throw .domain) := by
  have := load_cases rows {} [] ⟨rfl, rfl, fun _ => rfl⟩ ⟨by simp, by simp⟩
  simpa using this

/-- Both kinds of links lead from a kanji to entries that are loaded and have this link. -/
theorem C95_links (rows : List UcdRow) (d : UcdData) (h : UcdData.load rows {} = .ok d) (l n : Str) :
    (d.linkedJinmei.lookup l = some n → ∃ u, d.map.lookup n = some u ∧ u.name = n ∧ u.isJinmei = true ∧ l ∈ u.links) ∧
    (n ∈ listAt d.linkedOther l → ∃ u, d.map.lookup n = some u ∧ u.name = n ∧ u.isJinmei = false ∧ l ∈ u.links) := by
  rcases C95_load rows with ⟨us, d', _, h2, h3, h4⟩ | ⟨_, h1⟩
  case inr => rw [h1] at h; cases h
  rw [h3] at h
  cases h
  have found : ∀ u ∈ us, d.map.lookup u.name = some u := by
    intro u hu
    have := lookup_of_mem_nodup d.map (u.name, u) (by rw [h4.map, List.map_map]; exact h2.1)
      (by rw [h4.map]; exact List.mem_map.mpr ⟨u, hu, rfl⟩)
    exact this
  constructor
  · intro hl
    have hm := lookup_mem hl
    rw [h4.jinmei] at hm
    simp only [ucdJinmeiLinks, List.mem_flatMap, List.mem_filter, List.mem_map, Prod.mk.injEq] at hm
    obtain ⟨u, ⟨hu, hj⟩, x, hx, rfl, rfl⟩ := hm
    exact ⟨u, found u hu, rfl, hj, hx⟩
  · intro hl
    rw [h4.other] at hl
    simp only [ucdOtherLinks, List.mem_flatMap, List.mem_filter, List.mem_map] at hl
    obtain ⟨u, ⟨hu, hj⟩, x, ⟨hx, e⟩, rfl⟩ := hl
    exact ⟨u, found u hu, rfl, by simpa using hj, by rw [← eq_of_beq e]; exact hx⟩

example : UcdData.load [sampleJoyo, sampleJoyo] {} = .throw .domain ∧
    UcdData.load [sampleVariant (u8!"Y"), { sampleVariant (u8!"Y") with code := u8!"9039", name := u8!"逹" }] {} =
      .throw .domain ∧
    (∃ d, UcdData.load [sampleVariant [], { sampleVariant [] with code := u8!"9039", name := u8!"逹" }] {} = .ok d) := by
  refine ⟨by decide +kernel, by decide +kernel, _, rfl⟩

/-! ## C96: finding entries -/

theorem ucd_find_map (d : UcdData) (us : List UcdRec) (h : UcdContents d us) (n : Str) :
    d.map.lookup n = us.find? fun u => u.name == n := by
  rw [h.map]
  have := lookup_map_key us (fun u => u.name) id n
  simpa using this

theorem find?_unique {α : Type} (l : List α) (p : α → Bool) (x : α) (hx : x ∈ l) (hp : p x = true)
    (h : ∀ y ∈ l, p y = true → y = x) : l.find? p = some x := by
  cases hf : l.find? p with
  | none => exact absurd hp (by simpa using List.find?_eq_none.mp hf x hx)
  | some y => rw [h y (List.mem_of_find?_eq_some hf) (List.find?_some hf)]

theorem flatMap_nodup_unique {α β : Type} (l : List α) (f : α → List β) (h : (l.flatMap f).Nodup) (x y : α) (b : β)
    (hx : x ∈ l) (hy : y ∈ l) (hbx : b ∈ f x) (hby : b ∈ f y) : x = y := by
  induction l with
  | nil => cases hx
  | cons a l ih =>
    rw [List.flatMap_cons, List.nodup_append] at h
    rcases List.mem_cons.mp hx with rfl | hx'
    · rcases List.mem_cons.mp hy with rfl | hy'
      · rfl
      · exact absurd rfl (h.2.2 b hbx b (List.mem_flatMap.mpr ⟨y, hy', hby⟩))
    · rcases List.mem_cons.mp hy with rfl | hy'
      · exact absurd rfl (h.2.2 b hby b (List.mem_flatMap.mpr ⟨x, hx', hbx⟩))
      · exact ih h.2.1 hx' hy'

/-- What is documented: a kanji with a variation selector is found if there's an entry with a link to the kanji. -/
def C96_statement : Prop := ∀ (rows : List UcdRow) (d : UcdData) (c v : Char) (n : Str) (u : UcdRec),
  UcdData.load rows {} = .ok d → 128 ≤ c.toNat → IsSelector v → (n, u) ∈ d.map → String.utf8EncodeChar c ∈ u.links →
  d.find (String.utf8EncodeChar c ++ String.utf8EncodeChar v) ≠ .ok none

/-- Entries that aren't "jinmei" are never found this way. -/
theorem C96_violated : ¬ C96_statement := by
  intro h
  exact h [sampleVariant []] _ '逸' (Char.ofNat 0xfe00) _ _ rfl (by decide) (by decide) (.head _) (by decide +kernel)
    (by decide +kernel)

/-- A name without variation selector gives the entry with this name.  A kanji with a variation selector gives the
"jinmei" entry with a link to the kanji (there is at most one). -/
theorem C96_find_partial (rows : List UcdRow) (us : List UcdRec) (d : UcdData) (hr : RowsDescribe rows us)
    (h : UcdData.load rows {} = .ok d) :
    (∀ n : Str, (¬ ∃ (p : Str) (v : Char), IsSelector v ∧ 2 ≤ p.length ∧ p.length ≤ 4 ∧ n = p ++ String.utf8EncodeChar v) →
      d.find n = .ok (us.find? fun u => u.name == n)) ∧
    (∀ c v : Char, 128 ≤ c.toNat → IsSelector v →
      d.find (String.utf8EncodeChar c ++ String.utf8EncodeChar v) =
        .ok (us.find? fun u => u.isJinmei && decide (String.utf8EncodeChar c ∈ u.links)) ∧
      ∀ u ∈ us, ∀ w ∈ us, u.isJinmei = true → w.isJinmei = true → String.utf8EncodeChar c ∈ u.links →
        String.utf8EncodeChar c ∈ w.links → u = w) := by
  rcases C95_load rows with ⟨us', d', h1, h2, h3, h4⟩ | ⟨_, h1⟩
  case inr => rw [h1] at h; cases h
  rw [h3] at h
  cases h
  have e : us' = us := by
    clear h2 h3 h4
    induction rows generalizing us us' with
    | nil => cases us <;> cases us' <;> first | rfl | exact hr.elim | exact h1.elim
    | cons r rs ih =>
      cases us with
      | nil => exact hr.elim
      | cons u us =>
        cases us' with
        | nil => exact h1.elim
        | cons w us' => rw [C93_unique r w u h1.1 hr.1, ih us hr.2 us' h1.2]
  subst e
  have uniq : ∀ x : Str, ∀ u ∈ us', ∀ w ∈ us', u.isJinmei = true → w.isJinmei = true → x ∈ u.links → x ∈ w.links → u = w := by
    intro x u hu w hw ju jw lu lw
    exact flatMap_nodup_unique _ _ h2.2 u w x (List.mem_filter.mpr ⟨hu, ju⟩) (List.mem_filter.mpr ⟨hw, jw⟩) lu lw
  constructor
  · intro n hn
    unfold UcdData.find
    obtain ⟨b, hb⟩ := isCharWith_total n
    cases b with
    | true => exact absurd ((isCharWith_iff n).mp hb) hn
    | false =>
      rw [hb]
      show Res.ok _ = _
      rw [ucd_find_map d us' h4]
  · intro c v hc hv
    refine ⟨?_, uniq _⟩
    unfold UcdData.find
    rw [(isCharWith_iff _).mpr ⟨_, v, hv, (encodeChar_length hc).1, (encodeChar_length hc).2, rfl⟩, (C64_remove c v hc hv).1]
    simp only [Res.ofOption, Res.bind, if_true]
    generalize String.utf8EncodeChar c = x at uniq ⊢
    cases hl : d.linkedJinmei.lookup x with
    | none =>
      simp only
      congr 1
      symm
      rw [List.find?_eq_none]
      intro u hu hp
      rw [lookup_none, h4.jinmei, jinmeiLinks_keys] at hl
      simp only [Bool.and_eq_true, decide_eq_true_eq] at hp
      exact hl (List.mem_flatMap.mpr ⟨u, List.mem_filter.mpr ⟨hu, hp.1⟩, hp.2⟩)
    | some n =>
      simp only
      obtain ⟨u, a1, a2, a3, a4⟩ := (C95_links rows d h3 x n).1 hl
      have hu : u ∈ us' := by
        rw [ucd_find_map d us' h4] at a1
        exact List.mem_of_find?_eq_some a1
      rw [a1]
      congr 1
      symm
      apply find?_unique _ _ u hu (by simp [a3, a4])
      intro y hy hp
      simp only [Bool.and_eq_true, decide_eq_true_eq] at hp
      exact uniq x y hy u hu hp.1 a3 hp.2 a4

/-! ## C97: readings -/

theorem romajiLoop_result (c : Converter) (s w a b : Str) :
    c.convertRomajiLoop s w (a ++ b) = (c.convertRomajiLoop s w b).bind fun r => .ok (a ++ r) := by
  induction s generalizing w b with
  | nil =>
    simp only [Converter.convertRomajiLoop]
    cases c.toKana w <;> simp [Res.bind]
  | cons x s ih =>
    simp only [Converter.convertRomajiLoop]
    split
    · cases c.toKana w with
      | throw e => rfl
      | ub => rfl
      | ok k =>
        simp only [Res.bind_ok]
        split
        · cases narrowDelimAt x with
          | throw e => rfl
          | ub => rfl
          | ok o => simp only [Res.bind_ok]; rw [← ih]; simp
        · rw [← ih]; simp
    · exact ih _ _

theorem romajiLoop_comma (c : Converter) (s t w res : Str) :
    c.convertRomajiLoop (s ++ 0x2c :: t) w res =
      (c.convertRomajiLoop s w res).bind fun r => c.convertRomajiLoop t [] (r ++ u8!"、") := by
  induction s generalizing w res with
  | nil =>
    simp only [List.nil_append, Converter.convertRomajiLoop]
    rw [if_pos (by decide)]
    cases c.toKana w with
    | throw e => rfl
    | ub => rfl
    | ok k =>
      simp only [Res.bind_ok]
      rw [if_pos ⟨by decide, by decide, .inr (by decide)⟩, show narrowDelimAt 0x2c = .ok (u8!"、") by decide +kernel]
      rfl
  | cons x s ih =>
    simp only [List.cons_append, Converter.convertRomajiLoop]
    split
    · cases c.toKana w with
      | throw e => rfl
      | ub => rfl
      | ok k =>
        simp only [Res.bind_ok]
        split
        · cases narrowDelimAt x with
          | throw e => rfl
          | ub => rfl
          | ok o => simp only [Res.bind_ok]; exact ih _ _
        · exact ih _ _
    · exact ih _ _

theorem split_cons_parts (d : UInt8) (s : Str) :
    (d ∉ s ∧ split d s = [s]) ∨ ∃ a b, s = a ++ d :: b ∧ d ∉ a ∧ split d s = a :: split d b := by
  induction s with
  | nil => exact .inl ⟨by simp, rfl⟩
  | cons x s ih =>
    by_cases hx : x = d
    · exact .inr ⟨[], s, by simp [hx], by simp, by simp [split, hx]⟩
    · rcases ih with ⟨h1, h2⟩ | ⟨a, b, h1, h2, h3⟩
      · exact .inl ⟨by simp [h1, Ne.symm hx], by simp [split, hx, h2]⟩
      · exact .inr ⟨x :: a, b, by simp [h1], by simp [h2, Ne.symm hx], by simp [split, hx, h3]⟩

theorem wideCommas_cons (w : Str) (ws : List Str) (h : ws ≠ []) : wideCommas (w :: ws) = w ++ u8!"、" ++ wideCommas ws := by
  cases ws with
  | nil => exact absurd rfl h
  | cons v ws => rfl

theorem convert_commas (c : Converter) (hc : c.target ≠ .romaji) (K : Str → Str)
    (hK : ∀ w, c.convertFrom .romaji w = .ok (K w)) (n : Nat) (s : Str) (hn : s.length ≤ n) :
    K s = wideCommas ((split 0x2c s).map K) := by
  have hK' : ∀ w, c.convertRomajiLoop w [] [] = .ok (K w) := by
    intro w
    have := hK w
    unfold Converter.convertFrom at this
    rwa [if_neg (by intro e; exact hc e.symm)] at this
  induction n generalizing s with
  | zero =>
    have : s = [] := List.eq_nil_of_length_eq_zero (by omega)
    subst this; rfl
  | succ n ih =>
    rcases split_cons_parts 0x2c s with ⟨_, h⟩ | ⟨a, b, rfl, _, h⟩
    · rw [h]; rfl
    · have h1 := hK' (a ++ 0x2c :: b)
      rw [romajiLoop_comma, hK' a] at h1
      simp only [Res.bind] at h1
      have h2 := romajiLoop_result c b [] (K a ++ u8!"、") []
      rw [List.append_nil] at h2
      rw [h2, hK' b] at h1
      simp only [Res.bind, Res.ok.injEq] at h1
      rw [h, List.map_cons, wideCommas_cons _ _ (by have := split_ne_nil 0x2c b; simpa using this), ← ih b (by simp at hn; omega), h1]

/-- The readings are the words of the "on" readings as Katakana and the words of the "kun" readings as Hiragana, with
"、" between them. -/
theorem C97_readings (ltr : Bool) (u : UcdRec) (K H : Str → Str)
    (hK : ∀ w, Converter.convertFrom ⟨.katakana, .none, ltr⟩ .romaji w = .ok (K w))
    (hH : ∀ w, Converter.convertFrom ⟨.hiragana, .none, ltr⟩ .romaji w = .ok (H w)) :
    getReadingsAsKana ltr none = .ok [] ∧
    getReadingsAsKana ltr (some u) =
      let on := wideCommas ((readingWords u.on).map K)
      let kun := wideCommas ((readingWords u.kun).map H)
      .ok (if u.kun = [] then on else if on = [] then kun else on ++ u8!"、" ++ kun) := by
  refine ⟨rfl, ?_⟩
  unfold getReadingsAsKana
  simp only []
  rw [hK]
  simp only [Res.bind, isEmpty_true_iff, hH]
  unfold readingWords
  rw [← convert_commas _ (by intro h; cases h) K hK _ _ (Nat.le_refl _), ← convert_commas _ (by intro h; cases h) H hH _ _ (Nat.le_refl _)]
  unfold spacesToCommas
  by_cases h : u.kun = []
  · rw [if_pos h, if_pos h]
  · rw [if_neg h, if_neg h]
    by_cases h1 : K (u.on.map fun b => if b = 0x20 then 0x2c else b) = []
    · rw [if_pos h1, if_pos h1, h1]; rfl
    · rw [if_neg h1, if_neg h1]
      have h2 := convert_commas _ (by intro h; cases h) H hH _ (0x2c :: u.kun.map fun b => if b = 0x20 then 0x2c else b) (Nat.le_refl _)
      have h3 : split 0x2c (0x2c :: u.kun.map fun b => if b = 0x20 then 0x2c else b) =
          [] :: split 0x2c (u.kun.map fun b => if b = 0x20 then 0x2c else b) := by
        rw [split, if_pos rfl]
      have hnil : H [] = [] := by
        have := hH []
        rw [show Converter.convertFrom ⟨.hiragana, .none, ltr⟩ .romaji [] = .ok [] by cases ltr <;> decide +kernel] at this
        exact (Res.ok.inj this).symm
      rw [h3, List.map_cons, hnil, wideCommas_cons _ _ (by have := split_ne_nil 0x2c (u.kun.map fun b => if b = 0x20 then 0x2c else b); simpa using this),
        ← convert_commas _ (by intro h; cases h) H hH _ _ (Nat.le_refl _)] at h2
      rw [h2]
      simp

/-- Such functions exist: converting always gives a text. -/
theorem C97_total (ltr : Bool) (t : CharType) (w : Str) : ∃ k, Converter.convertFrom ⟨t, .none, ltr⟩ .romaji w = .ok k :=
  Converter.convertFrom_ok _ _ _

/-- The last word shows C30: the readings in the file are in upper case, where a small っ isn't recognised. -/
example : (match UcdData.load [sampleJoyo, { sampleVariant (u8!"Y") with kun := u8!"MATTAKU" }] {} with
    | .ok d => (getReadingsAsKana true (d.map.lookup (u8!"逸")), getReadingsAsKana true (d.map.lookup [0xef, 0xa9, 0xa7]))
    | _ => (.ub, .ub)) = (.ok (u8!"イツ、イチ、はやる"), .ok (u8!"まTたく")) := by decide +kernel

/-! ## C98: printed counts -/

/-- Sum of counts. -/
def PrintCount.sum (a b : PrintCount) : PrintCount :=
  { count := a.count + b.count, link := a.link + b.link, variantStrokes := a.variantStrokes + b.variantStrokes
    meaning := a.meaning + b.meaning, onReading := a.onReading + b.onReading, kunReading := a.kunReading + b.kunReading
    morohashi := a.morohashi + b.morohashi, nelson := a.nelson + b.nelson }

theorem PrintCount.add_eq (p : PrintCount) (k : UcdRec) : p.add k = p.sum (featureCounts [k]) := by
  unfold PrintCount.add PrintCount.sum featureCounts Ucd.hasLinks
  have e : ∀ s : Str, (!s.isEmpty) = decide (s ≠ []) := by intro s; cases s <;> simp
  have e' : ∀ s : List Str, (!s.isEmpty) = decide (s ≠ []) := by intro s; cases s <;> simp
  simp only [e, e', List.filter_cons, List.filter_nil, decide_eq_true_eq, List.length_singleton]
  congr 1 <;> split <;> simp

theorem featureCounts_append (a b : List UcdRec) : featureCounts (a ++ b) = (featureCounts a).sum (featureCounts b) := by
  simp [featureCounts, PrintCount.sum]

theorem PrintCount.sum_assoc (a b c : PrintCount) : (a.sum b).sum c = a.sum (b.sum c) := by
  simp [PrintCount.sum, Nat.add_assoc]

theorem PrintCount.zero_sum (a : PrintCount) : PrintCount.sum {} a = a := by
  simp [PrintCount.sum]

theorem ucdCounts_eq (ks : List UcdRec) (a b c : PrintCount) : ucdCounts ks (a, b, c) =
    (a.sum (featureCounts (ks.filter fun k => k.isJoyo)),
     b.sum (featureCounts (ks.filter fun k => !k.isJoyo && k.isJinmei)),
     c.sum (featureCounts (ks.filter fun k => !k.isJoyo && !k.isJinmei))) := by
  induction ks generalizing a b c with
  | nil => simp [ucdCounts, featureCounts, PrintCount.sum]
  | cons k ks ih =>
    have step : ∀ l : List UcdRec, featureCounts (k :: l) = (featureCounts [k]).sum (featureCounts l) :=
      fun l => featureCounts_append [k] l
    unfold ucdCounts
    cases h1 : k.isJoyo with
    | true =>
      simp only [if_true, ih, List.filter_cons, h1, Bool.not_true, Bool.false_and, Bool.false_eq_true, if_false]
      rw [step, PrintCount.add_eq, PrintCount.sum_assoc]
    | false =>
      cases h2 : k.isJinmei with
      | true =>
        simp only [if_true, ih, List.filter_cons, h1, h2, Bool.not_true, Bool.not_false, Bool.and_false, Bool.and_self,
          Bool.false_eq_true, if_false]
        rw [step, PrintCount.add_eq, PrintCount.sum_assoc]
      | false =>
        simp only [if_true, ih, List.filter_cons, h1, h2, Bool.not_false, Bool.and_false, Bool.and_self,
          Bool.false_eq_true, if_false]
        rw [step, PrintCount.add_eq, PrintCount.sum_assoc]

/-- The entries are counted in three groups: the numbers for each group are the numbers of its entries with the
feature, and the totals printed (the sums) are the numbers among all entries. -/
theorem C98_counts (ks : List UcdRec) :
    ucdCounts ks ({}, {}, {}) =
      (featureCounts (ks.filter fun k => k.isJoyo),
       featureCounts (ks.filter fun k => !k.isJoyo && k.isJinmei),
       featureCounts (ks.filter fun k => !k.isJoyo && !k.isJinmei)) ∧
    ((featureCounts (ks.filter fun k => k.isJoyo)).sum
      (featureCounts (ks.filter fun k => !k.isJoyo && k.isJinmei))).sum
      (featureCounts (ks.filter fun k => !k.isJoyo && !k.isJinmei)) = featureCounts ks := by
  constructor
  · rw [ucdCounts_eq, PrintCount.zero_sum, PrintCount.zero_sum, PrintCount.zero_sum]
  · have three : ∀ (q : UcdRec → Bool), ((ks.filter fun k => k.isJoyo).filter q).length +
        ((ks.filter fun k => !k.isJoyo && k.isJinmei).filter q).length +
        ((ks.filter fun k => !k.isJoyo && !k.isJinmei).filter q).length = (ks.filter q).length := by
      intro q
      induction ks with
      | nil => rfl
      | cons k ks ih =>
        cases h1 : k.isJoyo <;> cases h2 : k.isJinmei <;> cases h3 : q k <;>
          simp [h1, h2, h3] <;> simp [List.filter_filter] at ih ⊢ <;> omega
    have ft : ∀ l : List UcdRec, l.filter (fun _ => true) = l := fun l => by simp
    have all := three (fun _ => true)
    simp only [ft] at all
    simp only [featureCounts, PrintCount.sum, three, all]

/-- For loaded data the middle group has all "jinmei" entries. -/
theorem C98_groups (rows : List UcdRow) (us : List UcdRec) (h : RowsDescribe rows us) (u : UcdRec) (hu : u ∈ us) :
    (!u.isJoyo && u.isJinmei) = u.isJinmei := by
  induction rows generalizing us with
  | nil => cases us with
    | nil => cases hu
    | cons => exact h.elim
  | cons r rs ih => cases us with
    | nil => exact h.elim
    | cons v us =>
      rcases List.mem_cons.mp hu with rfl | hu
      · cases hj : u.isJoyo with
        | false => simp
        | true => rw [(h.1.joyoOnly hj).1]; rfl
      · exact ih us h.2 hu

end KT
