import Verif.Props.LoadSafeFiles
/-!
# C181: loading the data
-/
namespace KT
open Spec

/-- The names of the files of the lists. -/
def LevelWord (f : DataFiles) (n : Str) : Prop := ∃ x, n ∈ wordsIn (f.levels x)
@[inherit_doc LevelWord]
def KyuWord (f : DataFiles) (n : Str) : Prop := ∃ x, n ∈ wordsIn (f.kyus x)

/-- The list files of the data. -/
def loadListsOf (f : DataFiles) : Res ListFiles :=
  loadListFiles (levelOrder.map fun l => (l, f.levels l)) (kyuOrder.map fun k => (k, f.kyus k)) f.frequency

theorem typed_words {τ : Type} {ts : List τ} {text : τ → Str} {r : List (τ × LoadState)}
    (h : loadTyped [] (ts.map fun t => (t, text t)) = .ok r) (t : τ) (ht : t ∈ ts) :
    ∃ st, (t, st) ∈ r ∧ st.list = wordsIn (text t) := by
  obtain ⟨h1, h2, _⟩ := loadTyped_spec _ _ _ h
  rw [List.map_map] at h1 h2
  obtain ⟨i, hi, rfl⟩ := List.getElem_of_mem ht
  have hlen : r.length = ts.length := by simpa using congrArg List.length h1
  have hi' : i < r.length := by omega
  have e1 : r[i].1 = ts[i] := by
    have := congrArg (·[i]?) h1
    simpa [hi, hi'] using this
  have e2 : r[i].2.list = fileTokens (text ts[i]) := by
    have := congrArg (·[i]?) h2
    simpa [hi, hi'] using this
  refine ⟨r[i].2, ?_, e2⟩
  have : r[i] = (ts[i], r[i].2) := by rw [← e1]
  rw [← this]
  exact List.getElem_mem hi'

/-- What the loaded lists are. -/
structure ListsFrom (f : DataFiles) (l : ListFiles) : Prop where
  level : ∀ n, LevelWord f n → (l.level n).isSome
  frequency : ∀ n ∈ wordsIn f.frequency, l.frequencyOf n ≠ 0
  kyu : ∀ n, KyuWord f n → (l.kyu n).isSome
  levels : ∀ p ∈ l.levels, ∀ n ∈ p.2.list, LevelWord f n
  frequencies : ∀ n ∈ l.frequency.list, n ∈ wordsIn f.frequency
  kyus : ∀ p ∈ l.kyus, ∀ n ∈ p.2.list, KyuWord f n
  length : l.frequency.list.length < 65536

theorem listsFrom {f : DataFiles} {l : ListFiles} (h : loadListsOf f = .ok l) : ListsFrom f l := by
  obtain ⟨h1, h2, h3⟩ := loadListFiles_ok h
  have hl : ListsLoaded l := ⟨_, _, _, h⟩
  obtain ⟨e1, _, e3, _⟩ := C40_entries _ _ _ _ _ h3
  refine ⟨?_, ?_, ?_, ?_, ?_, ?_, by omega⟩
  · rintro n ⟨x, hx⟩
    obtain ⟨st, hs, e⟩ := typed_words h1 x (by cases x <;> decide)
    rw [(hl.level_iff n x).mpr ⟨st, hs, by rw [e]; exact hx⟩]
    rfl
  · intro n hn h0
    have hn : n ∈ l.frequency.list := by rw [e1]; exact hn
    obtain ⟨i, hi⟩ := List.getElem?_of_mem hn
    have := (hl.frequency_iff n i).mp hi
    rw [h0] at this
    exact absurd this (by simp)
  · rintro n ⟨x, hx⟩
    obtain ⟨st, hs, e⟩ := typed_words h2 x (by cases x <;> decide)
    rw [(hl.kyu_iff n x).mpr ⟨st, hs, by rw [e]; exact hx⟩]
    rfl
  · intro p hp n hn
    obtain ⟨t, _, e⟩ := (typed_texts h1).2 p hp
    exact ⟨t, by rw [e] at hn; exact hn⟩
  · intro n hn
    rw [e1] at hn
    exact hn
  · intro p hp n hn
    obtain ⟨t, _, e⟩ := (typed_texts h2).2 p hp
    exact ⟨t, by rw [e] at hn; exact hn⟩

theorem findEntry_variant {d : UcdData} {n : Str} {u : UcdRec} (hv : isCharWithVariationSelector n = some true)
    (h : d.findEntry n = some u) : ∃ b r, noVariationSelector n = some b ∧ (b, r) ∈ d.linkedJinmei ∧ (r, u) ∈ d.map := by
  unfold UcdData.findEntry UcdData.find at h
  rw [hv] at h
  simp only [Res.ofOption, Res.bind, if_true] at h
  cases hb : noVariationSelector n with
  | none => rw [hb] at h; cases h
  | some b =>
    rw [hb] at h
    simp only at h
    cases hl : d.linkedJinmei.lookup b with
    | none => rw [hl] at h; cases h
    | some r =>
      rw [hl] at h
      exact ⟨b, r, rfl, mem_of_lookup hl, mem_of_lookup h⟩

theorem loadFits (ltr : Bool) (f : DataFiles) (hf : NamesFit f) (lists : ListFiles) (hl : ListsFrom f lists) (u : UcdData)
    (hu : UcdFrom f.ucd u) (rad : RadicalData) (readings : List (Str × Str)) :
    LoadFits (loadedOf ltr lists u rad readings) f.kanji (NamedIn f) (ListedIn f) (LevelWord f) (· ∈ wordsIn f.frequency)
      (KyuWord f) where
  radicalName := fun s => (Safe.bind (Q := fun _ => True) (Safe.any (findName_safe rad s)) fun _ _ _ => by trivial).noub
  ucdRadical := fun x => by
    show (match u.entry x with
      | some e => (rad.findNumber e.radical).bind fun r => Res.ok (radicalParts r)
      | none => .throw .domain) ≠ .ub
    split
    · exact (Safe.bind (Q := fun _ => True) (Safe.any (findNumber_safe rad _)) fun _ _ _ => by trivial).noub
    · exact fun h => by cases h
  one := hf.character
  rows := fun n hn => .inl hn
  linked := fun n hn => .inr (.inl hn)
  entries := fun n hn => .inr (.inr (.inl hn))
  ucds := fun x hx => by
    obtain ⟨y, hy, rfl⟩ := List.mem_map.mp hx
    obtain ⟨p, hp, rfl⟩ := ordered_mem hy
    obtain ⟨e, r, hr, er⟩ := hu.entry p hp
    exact .inr (.inr (.inr ⟨r, hr, by rw [er]; exact e.symm⟩))
  compat := fun n hn hv x hx => by
    obtain ⟨y, hy, rfl⟩ := Option.map_eq_some_iff.mp hx
    obtain ⟨b, r, hb, hm, he⟩ := findEntry_variant hv hy
    obtain ⟨row, hrow, e1, e2⟩ := hu.linked _ hm
    right
    have := hf.variants n hn hv b hb row hrow e2
    have en : y.name = r := (hu.entry _ he).1
    show ¬ ListedIn f y.name
    rw [en]
    have e1 : row.name = r := e1
    rw [← e1]
    exact this
  level := hl.level
  frequency := hl.frequency
  kyu := hl.kyu
  levelRows := fun n ⟨x, hx⟩ => hf.level x n hx
  frequencyRows := hf.frequency

theorem loadKanji_fits (ltr : Bool) (f : DataFiles) (hf : NamesFit f) (lists : ListFiles) (hl : ListsFrom f lists) (u : UcdData)
    (hu : UcdFrom f.ucd u) (rad : RadicalData) (readings : List (Str × Str)) :
    loadKanji (loadedOf ltr lists u rad readings) f.kanji ≠ .ub :=
  loadKanji_safe (loadFits ltr f hf lists hl u hu rad readings) hl.length
    (fun p hp n hn => ⟨.inl (hl.levels p hp n hn), hl.levels p hp n hn⟩)
    (fun n hn => ⟨.inr (.inl (hl.frequencies n hn)), hl.frequencies n hn⟩)
    (fun p hp n hn => ⟨.inr (.inr (hl.kyus p hp n hn)), hl.kyus p hp n hn⟩)

/-- Loading the data doesn't fail an assertion unless reading the radicals does. -/
theorem loadData_safe (ltr : Bool) (f : DataFiles) (hf : NamesFit f) (hr : RadicalData.load f.radicalCols f.radicals ≠ .ub) :
    loadData ltr f ≠ .ub := by
  refine Safe.noub (P := fun _ => True) ?_
  unfold loadData loadTextData
  refine Safe.bind (P := fun _ => True) ?_ fun t _ _ => ?_
  · refine Safe.bind (Safe.of (P := ListsFrom f) (loadListFiles_safe _ _ _) fun _ h => listsFrom h) fun lists _ hl => ?_
    refine Safe.bind (ucdLoad_safe f.ucd f.ucd (fun _ h => h) {} (ucdFrom_empty _)) fun u _ hu => ?_
    refine Safe.bind (Safe.any hr) fun rad _ _ => ?_
    refine Safe.bind (loadFrequencyReadings_safe _ _) fun readings _ _ => ?_
    refine Safe.bind (Safe.any (loadKanji_fits ltr f hf lists hl u hu rad readings)) fun store _ _ => ?_
    trivial
  · refine Safe.bind (Safe.any (loadMeaning_safe _ _ _)) fun _ _ _ => ?_
    refine Safe.bind (Safe.any (loadPattern_safe _ _ _)) fun _ _ _ => ?_
    refine Safe.bind (Safe.any (loadJukugo_safe _)) fun _ _ _ => ?_
    trivial

end KT
