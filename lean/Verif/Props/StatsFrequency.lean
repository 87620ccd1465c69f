import Verif.Props.StatsFiles
import Verif.Props.LoadedLists
/-!
# C183: the highest frequency used for the order in the lists of kanjiStats
-/
namespace KT
open Spec

/-- **C183** (frequencies): the frequency that kanji without one have in the order of the lists is larger than those of all
kanji in the file 'frequency.txt', it is the number of its entries plus one (0 if it is empty). -/
theorem C183_frequency (set : UInt16 → List StatCount → List StatCount) (ltr : Bool) (f : DataFiles)
    (t : KanjiStore × UcdData × Loaded) (ht : loadTextData ltr f = .ok t) (hp : f.Plain t.1)
    (hn : (fileTokens f.frequency).length ≤ 65534) :
    let m := if (fileTokens f.frequency).length = 0 then 0 else (fileTokens f.frequency).length + 1
    (loadedStats set t).set = set (UInt16.ofNat m) ∧
    ∀ k ∈ t.1.all, k.kanji.frequency.toNat ≠ 0 → k.kanji.frequency.toNat < m := by
  obtain ⟨d, u, l⟩ := t
  obtain ⟨lists, rad, hl, _, _, rfl, hd⟩ := loadTextData_ok ht
  obtain ⟨_, _, t3⟩ := loadListFiles_ok hl
  have e : lists.frequency.list = fileTokens f.frequency := (C40_entries _ _ _ _ _ t3).1
  have hls : ListsLoaded lists := ⟨_, _, _, hl⟩
  obtain ⟨_, _, ks, h1, h2, h3⟩ := loadKanji_lists hls hd (plainEntries_of hp hl)
  have h1 : ks.map (·.kanji.name) = lists.frequency.list := h1
  have hr : ∀ i k, ks[i]? = some k → k.kanji.frequency.toNat = 1 + i := by
    intro i k hk
    have hm := List.mem_of_getElem? hk
    have h0 := addAll_pos h3 k hm
    have hf := C103_frequency _ hls f.kanji d hd k (h2 k hm)
    split at hf
    · rw [hf] at h0; exact absurd rfl h0
    · have hi : lists.frequency.list[i]? = some k.kanji.name := by
        rw [← h1, List.getElem?_map, hk]; rfl
      have hx := (hls.frequency_iff _ i).mp hi
      rw [hf]
      show (lists.frequencyOf _).toNat = _
      rw [hx]; omega
  rw [addAll_ranked ks 1 {} hr] at h3
  have hlen : ks.length = (fileTokens f.frequency).length := by rw [← e, ← h1, List.length_map]
  have e1 := addRanked_all ks 0 (by omega)
  rw [show ({ maxFrequency := 0 } : FreqData KanjiRec) = {} from rfl, h3] at e1
  refine ⟨?_, fun k hk h0 => ?_⟩
  · show set (UInt16.ofNat d.frequencies.maxFrequency) = _
    have e2 : d.frequencies = rankedData ks 0 := by injection e1
    rw [e2, ← hlen]
    congr 2
  · have hf := C103_frequency _ hls f.kanji d hd k hk
    split at hf
    · rw [hf] at h0; exact absurd rfl h0
    · have hf : k.kanji.frequency = lists.frequencyOf k.kanji.name := hf
      have hi := (hls.frequency_iff k.kanji.name (k.kanji.frequency.toNat - 1)).mpr (by rw [← hf]; omega)
      have hlt := (List.getElem?_eq_some_iff.mp hi).1
      rw [e] at hlt
      split <;> omega

-- two kanji in the frequency file of the sample data
example : (match loadTextData true (dirData (diskOf sampleDisk) (u8!"d")) with
    | .ok t => (t.1.frequencies.maxFrequency, (fileTokens (dirData (diskOf sampleDisk) (u8!"d")).frequency).length) | _ => (0, 0)) = (3, 2) := by
  decide +kernel

end KT
