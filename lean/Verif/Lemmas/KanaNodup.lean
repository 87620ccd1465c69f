import Verif.Model.Kana
/-!
# The keys of the Kana maps are pairwise different (kernel evaluation over the whole tables)
-/
namespace KT

/-- All keys of the map `t` are different. -/
theorem nodup_romaji : ((kanaMap .romaji).map Prod.fst).Nodup := by decide +kernel
theorem nodup_hiragana : ((kanaMap .hiragana).map Prod.fst).Nodup := by decide +kernel
theorem nodup_katakana : ((kanaMap .katakana).map Prod.fst).Nodup := by decide +kernel

end KT
