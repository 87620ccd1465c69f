import Verif.Props.LoadSafe
/-!
# C181: processing the lists and the Unicode file
-/
namespace KT
open Spec

variable {l : Loaded} {f : KanjiFiles} {N E Lv Fr Ky : Str → Prop}

/-- No kanji was removed or changed. -/
theorem addToList_maps {kind : ListKind} {d e : KanjiStore} {k : KanjiRec} (h : d.addToList kind k = .ok e) :
    e.nameMap = d.nameMap ∧ e.compatMap = d.compatMap := by
  cases kind with
  | frequency =>
    obtain ⟨_, _, h⟩ := Res.bind_eq_ok h
    cases h
    exact ⟨rfl, rfl⟩
  | level x =>
    simp only [KanjiStore.addToList, KanjiStore.addToLevels] at h
    split at h <;> cases h
    exact ⟨rfl, rfl⟩
  | kyu x =>
    simp only [KanjiStore.addToList, KanjiStore.addToKyus] at h
    split at h <;> cases h
    exact ⟨rfl, rfl⟩

theorem addToList_safe {kind : ListKind} {d : KanjiStore} {k : KanjiRec} {O : Str → Prop} (hd : SafeStore E O Lv Fr Ky d)
    (hl : ∀ x, kind = .level x → k.kanji.level.isSome) (hf : kind = .frequency → k.kanji.frequency ≠ 0)
    (hk : ∀ x, kind = .kyu x → k.kanji.kyu.isSome) :
    Safe (d.addToList kind k) fun e => SafeStore E O Lv Fr Ky e ∧ Grows d e := by
  refine Safe.of ?_ fun e he => ?_
  · cases kind with
    | frequency =>
      have := hf rfl
      have h0 : k.kanji.frequency.toNat ≠ 0 := fun e => this (UInt16.toNat_inj.mp e)
      simp [KanjiStore.addToList, KanjiStore.addToFrequencies, FreqData.add, h0, Res.bind]
    | level x =>
      obtain ⟨y, hy⟩ := Option.isSome_iff_exists.mp (hl x rfl)
      simp [KanjiStore.addToList, KanjiStore.addToLevels, hy]
    | kyu x =>
      obtain ⟨y, hy⟩ := Option.isSome_iff_exists.mp (hk x rfl)
      simp [KanjiStore.addToList, KanjiStore.addToKyus, hy]
  · obtain ⟨m1, m2⟩ := addToList_maps he
    refine ⟨hd.congr m1 m2, fun n hn => ?_⟩
    unfold KanjiStore.Has
    rw [m1]
    exact hn

/-- Entries of a level are kanji that were loaded before. -/
theorem processLevel_safe (x : JlptLevel) (names : List Str) : ∀ (i : Nat) (d : KanjiStore),
    SafeStore E (fun _ => True) Lv Fr Ky d → (∀ n ∈ names, E n ∧ Lv n ∧ d.Has n) →
    Safe (KanjiStore.processList l.ctx l.ids (.level x) i names d) fun e => SafeStore E (fun _ => True) Lv Fr Ky e ∧ Grows d e := by
  induction names with
  | nil => exact fun i d hd _ => ⟨hd, fun n h => h⟩
  | cons n names ih =>
    intro i d hd hn
    obtain ⟨h1, h2, h3⟩ := hn n (by simp)
    obtain ⟨f1, f2⟩ := hd.found h1
    unfold KanjiStore.processList
    split
    · rename_i k hk
      obtain ⟨g1, g2⟩ := f2 k hk
      refine Safe.bind (addToList_safe hd (fun _ _ => g2.level (by rw [g1]; exact h2)) (fun e => by cases e)
        fun _ e => by cases e) fun e _ he => ?_
      refine (ih (i + 1) e he.1 fun m hm => ?_).mono fun e' he' => ⟨he'.1, fun m hm => he'.2 m (he.2 m hm)⟩
      obtain ⟨j1, j2, j3⟩ := hn m (List.mem_cons_of_mem _ hm)
      exact ⟨j1, j2, he.2 m j3⟩
    · rename_i hk
      rw [f1] at hk
      unfold KanjiStore.Has at h3
      rw [hk] at h3
      cases h3

theorem record_kanji (ic : IdCtx) (u : Option Ucd) (k : Kanji) : (ic.record u k).kanji = k := rfl

/-- Entries of the frequency list. -/
theorem processFrequency_safe (h : LoadFits l f N E Lv Fr Ky) (names : List Str) : ∀ (i : Nat) (d : KanjiStore),
    i + names.length < 65536 → SafeStore E (fun _ => True) (fun _ => False) Fr Ky d → (∀ n ∈ names, E n ∧ Fr n) →
    Safe (KanjiStore.processList l.ctx l.ids .frequency i names d) fun e =>
      SafeStore E (fun _ => True) (fun _ => False) Fr Ky e := by
  induction names with
  | nil => exact fun i d _ hd _ => hd
  | cons n names ih =>
    intro i d hi hd hn
    rw [List.length_cons] at hi
    obtain ⟨h1, h2⟩ := hn n (by simp)
    obtain ⟨f1, f2⟩ := hd.found h1
    have ih := fun e he => ih (i + 1) e (by omega) he fun m hm => hn m (List.mem_cons_of_mem _ hm)
    unfold KanjiStore.processList
    split
    · rename_i k hk
      obtain ⟨g1, g2⟩ := f2 k hk
      refine Safe.bind (addToList_safe hd (fun _ e => by cases e) (fun _ => g2.frequency (by rw [g1]; exact h2))
        fun _ e => by cases e) fun e _ he => ih e he.1
    · refine Safe.bind (P := fun k => k.kanji.name = n ∧ k.kanji.compatName = l.ctx.compatName n ∧
          k.kanji.kyu = l.lists.kyu n ∧ k.kanji.frequency = UInt16.ofNat (i + 1)) ?_ fun k _ hk => ?_
      · unfold newListKanji Kanji.makeFrequency
        exact Safe.bind (makeOther_safe h (l.ctx.withReading n) rfl rfl .frequency n (h.entries _ h1) _ _ _) fun k _ hk => hk
      · obtain ⟨k1, k2, k3, k4⟩ := hk
        have hne : k.kanji.frequency ≠ 0 := by
          rw [k4]
          intro e
          have := congrArg UInt16.toNat e
          rw [UInt16.toNat_ofNat'] at this
          have : (i + 1) % 65536 = 0 := this
          omega
        obtain ⟨m1, m2⟩ := checkInsertType_maps d ListKind.frequency.newType k (l.ctx.findUcd k.kanji.name)
        have hs : SafeStore E (fun _ => True) (fun _ => False) Fr Ky
            (d.checkInsertType ListKind.frequency.newType k (l.ctx.findUcd k.kanji.name)).1 :=
          (hd.checkInsert k _ (fun _ => ⟨fun e => e.elim, fun _ => hne, fun e => by rw [k3, ← k1]; exact h.kyu _ e⟩)
            (fun _ _ => trivial) (h.compatFits (by rw [k1]; exact h.entries _ h1) (by rw [k1]; exact k2))).congr m1 m2
        exact Safe.bind (addToList_safe hs (fun _ e => by cases e) (fun _ => hne) fun _ e => by cases e) fun e _ he => ih e he.1

/-- Entries of a Kyu. -/
theorem processKyu_safe (h : LoadFits l f N E Lv Fr Ky) (x : KenteiKyu) (names : List Str) : ∀ (i : Nat) (d : KanjiStore),
    SafeStore E (fun _ => True) (fun _ => False) (fun _ => False) Ky d → (∀ n ∈ names, E n ∧ Ky n) →
    Safe (KanjiStore.processList l.ctx l.ids (.kyu x) i names d) fun e =>
      SafeStore E (fun _ => True) (fun _ => False) (fun _ => False) Ky e := by
  induction names with
  | nil => exact fun i d hd _ => hd
  | cons n names ih =>
    intro i d hd hn
    obtain ⟨h1, h2⟩ := hn n (by simp)
    obtain ⟨f1, f2⟩ := hd.found h1
    have ih := fun e he => ih (i + 1) e he fun m hm => hn m (List.mem_cons_of_mem _ hm)
    unfold KanjiStore.processList
    split
    · rename_i k hk
      obtain ⟨g1, g2⟩ := f2 k hk
      exact Safe.bind (addToList_safe hd (fun _ e => by cases e) (fun e => by cases e)
        fun _ _ => g2.kyu (by rw [g1]; exact h2)) fun e _ he => ih e he.1
    · refine Safe.bind (P := fun k => k.kanji.name = n ∧ k.kanji.compatName = l.ctx.compatName n ∧
          k.kanji.kyu = some x) ?_ fun k _ hk => ?_
      · unfold newListKanji Kanji.makeKentei
        exact Safe.bind (makeOther_safe h l.ctx rfl rfl .kentei n (h.entries _ h1) _ _ _)
          fun k _ hk => ⟨hk.1, hk.2.1, hk.2.2.1⟩
      · obtain ⟨k1, k2, k3⟩ := hk
        obtain ⟨m1, m2⟩ := checkInsertType_maps d (ListKind.kyu x).newType k (l.ctx.findUcd k.kanji.name)
        have hs : SafeStore E (fun _ => True) (fun _ => False) (fun _ => False) Ky
            (d.checkInsertType (ListKind.kyu x).newType k (l.ctx.findUcd k.kanji.name)).1 :=
          (hd.checkInsert k _ (fun _ => ⟨fun e => e.elim, fun e => e.elim, fun _ => by rw [k3]; rfl⟩)
            (fun _ _ => trivial) (h.compatFits (by rw [k1]; exact h.entries _ h1) (by rw [k1]; exact k2))).congr m1 m2
        exact Safe.bind (addToList_safe hs (fun _ e => by cases e) (fun e => by cases e) fun _ _ => by rw [k3]; rfl)
          fun e _ he => ih e he.1

theorem processLists_append (a b : List (ListKind × List Str)) : ∀ d,
    processLists l (a ++ b) d = (processLists l a d).bind (processLists l b) := by
  induction a with
  | nil => intro d; rfl
  | cons p a ih =>
    intro d
    rw [List.cons_append]
    unfold processLists
    cases KanjiStore.processList l.ctx l.ids p.1 0 p.2 d with
    | ok d => exact ih d
    | _ => rfl

theorem processLevels_safe (ps : List (JlptLevel × LoadState)) : ∀ (d : KanjiStore),
    SafeStore E (fun _ => True) Lv Fr Ky d → (∀ p ∈ ps, ∀ n ∈ p.2.list, E n ∧ Lv n ∧ d.Has n) →
    Safe (processLists l (ps.map fun p => (.level p.1, p.2.list)) d) fun e => SafeStore E (fun _ => True) Lv Fr Ky e := by
  induction ps with
  | nil => exact fun d hd _ => hd
  | cons p ps ih =>
    intro d hd hn
    refine Safe.bind (processLevel_safe p.1 p.2.list 0 d hd (hn p (by simp))) fun e _ he => ?_
    refine ih e he.1 fun q hq n hm => ?_
    obtain ⟨j1, j2, j3⟩ := hn q (List.mem_cons_of_mem _ hq) n hm
    exact ⟨j1, j2, he.2 n j3⟩

theorem processKyus_safe (h : LoadFits l f N E Lv Fr Ky) (ps : List (KenteiKyu × LoadState)) : ∀ (d : KanjiStore),
    SafeStore E (fun _ => True) (fun _ => False) (fun _ => False) Ky d → (∀ p ∈ ps, ∀ n ∈ p.2.list, E n ∧ Ky n) →
    Safe (processLists l (ps.map fun p => (.kyu p.1, p.2.list)) d) fun e =>
      SafeStore E (fun _ => True) (fun _ => False) (fun _ => False) Ky e := by
  induction ps with
  | nil => exact fun d hd _ => hd
  | cons p ps ih =>
    intro d hd hn
    exact Safe.bind (processKyu_safe h p.1 p.2.list 0 d hd (hn p (by simp))) fun e _ he =>
      ih e he fun q hq => hn q (List.mem_cons_of_mem _ hq)

theorem processUcd_safe (h : LoadFits l f N E Lv Fr Ky) (us : List Ucd) (hu : ∀ u ∈ us, N u.name) : ∀ d,
    Safe (KanjiStore.processUcd l.ctx l.ids us d) fun _ => True := by
  induction us with
  | nil => exact fun _ => trivial
  | cons u us ih =>
    intro d
    have ih := ih fun x hx => hu x (List.mem_cons_of_mem _ hx)
    unfold KanjiStore.processUcd
    split
    · exact ih d
    · exact Safe.bind (makeOther_safe h l.ctx rfl rfl .ucd u.name (hu u (by simp)) _ _ _) fun k _ _ => ih _

theorem loadFrequencyReadings_safe (rows : List (Str × Str)) : ∀ m, Safe (loadFrequencyReadings rows m) fun _ => True := by
  induction rows with
  | nil => exact fun _ => trivial
  | cons r rows ih =>
    intro m
    obtain ⟨a, b⟩ := r
    unfold loadFrequencyReadings
    cases mapEmplace m a b with
    | mk m x => cases x <;> first | trivial | exact ih m

/-- The lists and the Unicode entries after the kanji of the tables. -/
theorem processAll_safe (h : LoadFits l f N E Lv Fr Ky) (hlen : l.lists.frequency.list.length < 65536)
    (hL : ∀ p ∈ l.lists.levels, ∀ n ∈ p.2.list, E n ∧ Lv n) (hF : ∀ n ∈ l.lists.frequency.list, E n ∧ Fr n)
    (hK : ∀ p ∈ l.lists.kyus, ∀ n ∈ p.2.list, E n ∧ Ky n) (d : KanjiStore) (hd : SafeStore E (fun _ => True) Lv Fr Ky d)
    (hhas : ∀ n, Lv n → d.Has n) :
    Safe ((processLists l l.lists.processOrder d).bind fun d => KanjiStore.processUcd l.ctx l.ids l.ucds d) fun _ => True := by
  refine Safe.bind (P := fun _ => True) ?_ fun d5 _ _ => processUcd_safe h _ h.ucds d5
  unfold ListFiles.processOrder
  rw [processLists_append, processLists_append]
  refine Safe.bind (P := fun e => SafeStore E (fun _ => True) (fun _ => False) (fun _ => False) Ky e) ?_ fun e _ he =>
    (processKyus_safe h l.lists.kyus e he hK).mono fun _ _ => trivial
  refine Safe.bind (processLevels_safe l.lists.levels d hd ?_) fun e _ he => ?_
  · intro p hp n hn
    exact ⟨(hL p hp n hn).1, (hL p hp n hn).2, hhas n (hL p hp n hn).2⟩
  · unfold processLists
    refine Safe.bind (processFrequency_safe h _ 0 e (by omega) (he.mono (fun _ h => h) (fun _ h => h.elim) (fun _ h => h)
      fun _ h => h) hF) fun e' _ he' => ?_
    exact he'.mono (fun _ h => h) (fun _ h => h) (fun _ h => h.elim) fun _ h => h

/-- The kanji are loaded or an exception is thrown. -/
theorem loadKanji_safe (h : LoadFits l f N E Lv Fr Ky) (hlen : l.lists.frequency.list.length < 65536)
    (hL : ∀ p ∈ l.lists.levels, ∀ n ∈ p.2.list, E n ∧ Lv n) (hF : ∀ n ∈ l.lists.frequency.list, E n ∧ Fr n)
    (hK : ∀ p ∈ l.lists.kyus, ∀ n ∈ p.2.list, E n ∧ Ky n) : loadKanji l f ≠ .ub := by
  refine Safe.noub (P := fun _ => True) ?_
  unfold loadKanji
  refine Safe.bind (loadFrequencyReadings_safe _ _) fun _ _ _ => ?_
  refine Safe.bind (loadJouyou_safe h) fun d1 _ h1 => ?_
  refine Safe.bind (loadOfficialLinked_safe h h1.1 h1.2) fun d2 _ h2 => ?_
  have j2 : ∀ n ∈ f.jouyou.map (·.name), d2.Has n := fun n hn => h2.2 n (h1.2 n hn)
  refine Safe.bind (loadJinmei_safe h h2.1 j2) fun d3 _ h3 => ?_
  have j3 : ∀ n ∈ f.jouyou.map (·.name), d3.Has n := fun n hn => h3.2.1 n (j2 n hn)
  refine Safe.bind (loadExtra_safe h h3.1 j3 h3.2.2) fun d4 _ h4 => ?_
  refine processAll_safe h hlen hL hF hK d4 h4.1 fun n hn => ?_
  rcases h.levelRows n hn with e | ⟨e, _⟩
  · exact h4.2 n (j3 n e)
  · exact h4.2 n (h3.2.2 n e)

end KT
