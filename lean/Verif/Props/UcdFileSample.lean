import Verif.Props.UcdFileLoad
import Verif.Props.UcdScriptSample
/-!
# C196: records that satisfy the conditions
-/
namespace KT
open Spec

/-- The four kanji that the script itself links to, 亜 (Joyo) and 亞 (Jinmei). -/
def loadEntries : List UcdEntry :=
  [{ cp := u8!"4E9C", blk := u8!"CJK", age := u8!"1.1", radical := 7, totalStrokes := 7, morohashi := [⟨2, u8!"258", 0, none⟩],
     joyo := some (.listed 2010), definition := u8!"Asia", on := u8!"A", jSource := u8!"J0-3021", japanese := u8!"ア" },
   { cp := u8!"4E9E", blk := u8!"CJK", age := u8!"1.1", radical := 7, totalStrokes := 8, morohashi := [⟨2, u8!"272", 1, none⟩],
     jinmei := some (2010, some (u8!"4E9C")), nelson := [(1, u8!"43")], tSource := u8!"T1-4C22" },
   { cp := u8!"5ED0", radical := 53, totalStrokes := 14, on := u8!"KYUU" },
   { cp := u8!"69D8", radical := 75, totalStrokes := 14, on := u8!"YOU", kun := u8!"SAMA" },
   { cp := u8!"6F97", radical := 85, totalStrokes := 15, on := u8!"KAN" },
   { cp := u8!"9D2A", radical := 196, totalStrokes := 17, on := u8!"OU" }]

def loadFile : Str := ucdFile (ucdScript (loadEntries.map shortXml) (loadEntries.map shortXml) []).1

theorem loadEntries_fit : ∀ e ∈ loadEntries, e.Fits := by
  intro e he
  simp only [loadEntries, List.mem_cons, List.not_mem_nil, or_false] at he
  rcases he with rfl | rfl | rfl | rfl | rfl | rfl
  · refine ⟨⟨by decide, by decide⟩, .inl rfl, .inl rfl, by simp, by simp, ?_, by simp, by simp, by simp, by simp, by simp,
      by simp, by simp⟩
    intro r hr
    simp only [List.mem_cons, List.not_mem_nil, or_false] at hr
    subst hr
    exact ⟨by decide, by decide, by decide, by simp⟩
  · refine ⟨⟨by decide, by decide⟩, .inl rfl, .inl rfl, by simp, by simp, ?_, ?_, by simp, ?_, by simp, by simp,
      by simp, by simp⟩
    · intro r hr
      simp only [List.mem_cons, List.not_mem_nil, or_false] at hr
      subst hr
      exact ⟨by decide, by decide, by decide, by simp⟩
    · intro r hr
      simp only [List.mem_cons, List.not_mem_nil, or_false] at hr
      subst hr
      exact ⟨⟨by decide, by decide⟩, by decide⟩
    · intro y c hc
      cases hc
      exact ⟨by decide, by decide⟩
  all_goals exact plainEntry_fits _ ⟨by decide, by decide⟩ rfl rfl rfl rfl rfl rfl rfl rfl rfl rfl rfl rfl

theorem loadEntries_plain : ∀ e ∈ loadEntries, PlainEntry e := by
  intro e he
  simp only [loadEntries, List.mem_cons, List.not_mem_nil, or_false] at he
  rcases he with rfl | rfl | rfl | rfl | rfl | rfl <;>
    exact ⟨by unfold CellText; decide, by unfold CellText; decide, by unfold CellText; decide, by unfold CellText; decide,
      by unfold CellText; decide, by unfold CellText; decide, by unfold CellText; decide, by unfold CellText; decide,
      by unfold CellText; decide, by unfold CellText; decide⟩

theorem kanjiCode_of {c : Str} (n : Nat) (h1 : c ≠ []) (h2 : c.all isHexChar = true) (h3 : c.length = 4)
    (h4 : c.all (fun b => decide (b.toNat < 0x61)) = true) (h5 : readNumber 16 c = some n) (h6 : Spec.Kanji n) : KanjiCode c :=
  ⟨⟨h1, by simpa using h2⟩, n, ⟨.inl h3, by simpa [NoLowerDigits] using h4, h5⟩, h6⟩

theorem loadEntries_accepted : ∀ e ∈ loadEntries, AcceptedEntry loadEntries [] e := by
  have hmoro : ∀ d ∈ loadEntries, ∀ r ∈ d.morohashi, ∃ x, StoredAs r x := by
    intro d hd r hr
    have : d.morohashi ∈ loadEntries.map fun d => d.morohashi := List.mem_map.mpr ⟨d, hd, rfl⟩
    simp only [loadEntries, List.map_cons, List.map_nil, List.mem_cons, List.not_mem_nil, or_false] at this
    rcases this with h | h | h | h | h | h <;> rw [h] at hr
    · simp only [List.mem_cons, List.not_mem_nil, or_false] at hr
      subst hr
      exact ⟨⟨258, .plain⟩, by decide, u8!"258", ⟨by decide, by decide, by decide, by decide⟩, rfl, rfl⟩
    · simp only [List.mem_cons, List.not_mem_nil, or_false] at hr
      subst hr
      exact ⟨⟨272, .prime⟩, by decide, u8!"272", ⟨by decide, by decide, by decide, by decide⟩, rfl, rfl⟩
    all_goals cases hr
  have h0 : ∀ e ∈ loadEntries, (e.jinmei = none → (linksOf loadEntries [] e).2.1 = []) ∧
      ∀ c ∈ (linksOf loadEntries [] e).2.1, c = u8!"4E9C" := by decide +kernel
  intro e he
  have hl : ∀ c ∈ (linksOf loadEntries [] e).2.1, KanjiCode c := by
    intro c hc
    rw [(h0 e he).2 c hc]
    exact kanjiCode_of 0x4e9c (by decide) (by decide) (by decide) (by decide) (by decide) (by decide)
  have hs : ∀ e ∈ loadEntries, (1 ≤ e.radical ∧ e.radical ≤ 214) ∧
      if (entryStrokes e).2 = 0 then 1 ≤ (entryStrokes e).1 ∧ (entryStrokes e).1 ≤ 64
      else 2 ≤ (entryStrokes e).1 ∧ (entryStrokes e).1 ≤ 64 ∧ 3 ≤ (entryStrokes e).2 ∧ (entryStrokes e).2 ≤ 33 := by decide +kernel
  have hjo : ∀ e ∈ loadEntries, e.joyo ≠ none → e.jinmei = none ∧
      ((entryReadings loadEntries [] e).all fun r => r.1.1 != []) = true := by decide +kernel
  have hji : ∀ e ∈ loadEntries, (match e.jinmei with | some (_, some c) => (readingOf loadEntries c).isSome | _ => true) = true := by
    decide +kernel
  have hc : KanjiCode e.cp := by
    simp only [loadEntries, List.mem_cons, List.not_mem_nil, or_false] at he
    rcases he with rfl | rfl | rfl | rfl | rfl | rfl
    · exact kanjiCode_of 0x4e9c (by decide) (by decide) (by decide) (by decide) (by decide) (by decide)
    · exact kanjiCode_of 0x4e9e (by decide) (by decide) (by decide) (by decide) (by decide) (by decide)
    · exact kanjiCode_of 0x5ed0 (by decide) (by decide) (by decide) (by decide) (by decide) (by decide)
    · exact kanjiCode_of 0x69d8 (by decide) (by decide) (by decide) (by decide) (by decide) (by decide)
    · exact kanjiCode_of 0x6f97 (by decide) (by decide) (by decide) (by decide) (by decide) (by decide)
    · exact kanjiCode_of 0x9d2a (by decide) (by decide) (by decide) (by decide) (by decide) (by decide)
  refine ⟨hc, hl, (hs e he).1, (hs e he).2, fun d hd _ => hmoro d hd, ?_, ?_⟩
  · intro y hy
    obtain ⟨a, b⟩ := hjo e he (by rw [hy]; simp)
    refine ⟨a, fun r hr => ?_⟩
    rw [hr] at b
    simpa using b
  · intro y c _ hy
    have := hji e he
    rw [hy] at this
    exact .inr this

/-- The conditions of `C196_load` hold for these records. -/
example : ∃ d, loadUcdText [] loadFile = .ok d ∧ d.map.map (·.1) = [u8!"亜", u8!"亞", u8!"廐", u8!"様", u8!"澗", u8!"鴪"] := by
  have hrec := allRecords_short loadEntries loadEntries_fit
  obtain ⟨-, us, d, h1, -, -, h2⟩ := C196_load [] List.nodup_nil (loadEntries.map shortXml) (loadEntries.map shortXml)
    loadEntries loadEntries [] hrec hrec loadEntries_plain loadEntries_plain (by unfold ManualReadings; decide +kernel)
    (fun e he => loadEntries_accepted e (List.mem_filter.mp (List.mem_filter.mp he).1).1) (by decide +kernel)
    (by decide +kernel) (by decide +kernel)
  refine ⟨d, h1, ?_⟩
  rw [h2]
  decide +kernel

/-- The second row. -/
example : (textLines loadFile)[2]? =
    some (u8!"4E9E\t亞\tCJK\t1.1\t7\t8\t\t\t272P\t43\tT\t\t\tY\t4E9C\t亜\tJinmei*\tAsia\tA\t\tア") := by
  decide +kernel

end KT
