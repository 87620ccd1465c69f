import Verif.Props.LoadSafeLists
import Verif.Props.Jukugo
import Verif.Props.UcdReport
/-!
# C181: the files loaded before and after the kanji

None of these can fail an assertion, for any contents.
-/
namespace KT
open Spec

theorem Safe.any {α : Type} {r : Res α} (h : r ≠ .ub) : Safe r fun _ => True := Safe.of h fun _ _ => trivial

/-! ## List files -/

theorem validate_safe (typed : Bool) (st : LoadState) (t : Str) : (ListFile.validate typed st t).2 ≠ .ub := by
  obtain ⟨r, hr⟩ := C05_total t true
  unfold ListFile.validate isValidMBUtf8
  rw [hr]
  simp only [Option.map_some]
  split
  · rename_i h; cases h
  · exact fun h => by cases h
  · split
    · exact fun h => by cases h
    · split
      · dsimp only
        split <;> exact fun h => by cases h
      · exact fun h => by cases h

theorem loadToken_safe (o ty : Bool) (line : Str) (st : LoadState) (t : Str) :
    (ListFile.loadToken o ty line st t).2 ≠ .ub := by
  have hv := validate_safe ty st t
  unfold ListFile.loadToken
  split
  · exact fun h => by cases h
  · split
    · rename_i s e; rw [e] at hv; exact absurd rfl hv
    · exact fun h => by cases h
    · exact fun h => by cases h
    · split <;> exact fun h => by cases h

theorem loadTokens_safe (o ty : Bool) (line : Str) (ts : List Str) : ∀ st, (ListFile.loadTokens o ty line ts st).2 ≠ .ub := by
  induction ts with
  | nil => exact fun _ h => by cases h
  | cons t ts ih =>
    intro st
    have ht := loadToken_safe o ty line st t
    unfold ListFile.loadTokens
    split
    · exact ih _
    · exact ht

theorem loadLines_safe (o ty : Bool) (ls : List Str) : ∀ st, (ListFile.loadLines o ty ls st).2 ≠ .ub := by
  induction ls with
  | nil => exact fun _ h => by cases h
  | cons l ls ih =>
    intro st
    have ht := loadTokens_safe o ty l (fields 0x20 l) st
    unfold ListFile.loadLines
    split
    · exact ih _
    · exact ht

theorem listFile_safe (o ty : Bool) (names : List Str) (text : Str) : (ListFile.load o ty names text).2 ≠ .ub := by
  have h := loadLines_safe o ty (fields 0x0a text) { names := names }
  unfold ListFile.load
  split
  · dsimp only
    split <;> exact fun h => by cases h
  · exact h

theorem loadTyped_safe {τ : Type} (fs : List (τ × Str)) : ∀ names, loadTyped names fs ≠ .ub := by
  induction fs with
  | nil => exact fun _ h => by cases h
  | cons f fs ih =>
    intro names
    obtain ⟨t, text⟩ := f
    have hl := listFile_safe false true names text
    unfold loadTyped
    split
    · refine (Safe.bind (Q := fun _ => True) (Safe.any (ih _)) fun _ _ _ => ?_).noub
      trivial
    · exact fun h => by cases h
    · rename_i e; rw [e] at hl; exact absurd rfl hl

theorem loadListFiles_safe (levels : List (JlptLevel × Str)) (kyus : List (KenteiKyu × Str)) (frequency : Str) :
    loadListFiles levels kyus frequency ≠ .ub := by
  unfold loadListFiles
  refine (Safe.bind (Q := fun _ => True) (Safe.any (loadTyped_safe levels [])) fun _ _ _ => ?_).noub
  refine Safe.bind (Safe.any (loadTyped_safe kyus [])) fun _ _ _ => ?_
  have hl := listFile_safe true false [] frequency
  split
  · trivial
  · trivial
  · rename_i e; rw [e] at hl; exact absurd rfl hl

/-! ## The Unicode file -/

theorem getChar32_safe (s : Str) : getChar32 s ≠ .ub := by
  unfold getChar32
  split
  · exact fun h => by cases h
  · split <;> exact fun h => by cases h

theorem ucdEntry_safe (c : Nat) (n : Str) : Safe (ucdEntry c n) fun e => e = n := by
  obtain ⟨x, hx, _⟩ := C01_getCode_safe n
  unfold ucdEntry
  split
  · trivial
  · rw [hx]
    simp only [Res.ofOption, Res.bind]
    split
    · trivial
    · rfl

theorem linksLoop_safe (ns : List Str) : ∀ cs, Safe (linksLoop ns cs) fun r => ∀ e ∈ r, e ∈ ns := by
  induction ns with
  | nil => exact fun _ => by simp [linksLoop, Safe]
  | cons n ns ih =>
    intro cs
    cases cs with
    | nil => trivial
    | cons c cs =>
      unfold linksLoop
      refine Safe.bind (Safe.any (getChar32_safe c)) fun _ _ _ => ?_
      refine Safe.bind (ucdEntry_safe _ n) fun e _ he => ?_
      refine Safe.bind (ih cs) fun r _ hr => ?_
      intro x hx
      rcases List.mem_cons.mp hx with rfl | hx
      · rw [he]; exact List.mem_cons_self
      · exact List.mem_cons_of_mem _ (hr x hx)

theorem loadLinks_safe (row : UcdRow) (joyo : Bool) :
    Safe (loadLinks row joyo) fun r => ∀ e ∈ r, e ∈ cellsBetween 0x2c row.linkNames := by
  unfold loadLinks
  split
  · refine Safe.bind (linksLoop_safe _ _) fun r _ hr => ?_
    split
    · trivial
    · split
      · trivial
      · intro e he
        have := hr e he
        rw [fields_eq] at this
        exact this
  · split
    · trivial
    · split
      · trivial
      · intro e he; cases he

theorem processBool_safe (s : Str) : processBool s ≠ .ub := by
  unfold processBool
  split
  · exact fun h => by cases h
  · split
    · exact fun h => by cases h
    · split <;> exact fun h => by cases h

theorem strokes2_safe (v w : UInt8) : Strokes.make2 v w ≠ .ub := by
  unfold Strokes.make2
  split
  · exact fun h => by cases h
  · split
    · exact fun h => by cases h
    · split <;> exact fun h => by cases h

theorem ucdStrokes_safe (row : UcdRow) : ucdStrokes row ≠ .ub := by
  unfold ucdStrokes
  split
  · exact (Safe.bind (Q := fun _ => True) (Safe.any (processU64_safe _ _)) fun _ _ _ => Safe.any (strokes_safe _)).noub
  · exact (Safe.bind (Q := fun _ => True) (Safe.any (processU64_safe _ _)) fun _ _ _ =>
      Safe.bind (Safe.any (processU64_safe _ _)) fun _ _ _ => Safe.any (strokes2_safe _ _)).noub

theorem linkType_safe (s : Str) : linkTypeFromString s ≠ .ub := by
  unfold linkTypeFromString
  split
  · exact fun h => by cases h
  · split <;> exact fun h => by cases h

theorem sourcesLoop_safe (s : Str) : ∀ r, Ucd.sourcesLoop s r ≠ .ub := by
  induction s with
  | nil => exact fun _ h => by cases h
  | cons b s ih =>
    intro r
    unfold Ucd.sourcesLoop
    split
    · split
      · exact fun h => by cases h
      · exact ih _
    · exact fun h => by cases h

theorem getSources_safe (s : Str) (joyo jinmei : Bool) : Ucd.getSources s joyo jinmei ≠ .ub := by
  unfold Ucd.getSources
  split
  · exact fun h => by cases h
  · refine (Safe.bind (Q := fun _ => True) (Safe.any (sourcesLoop_safe s 0)) fun _ _ _ => ?_).noub
    dsimp only
    trivial

theorem morohashi_safe (s : Str) : MorohashiId.parse s ≠ .ub := by
  rcases C37_total s with ⟨x, h⟩ | h <;> rw [h] <;> exact fun h => by cases h

theorem makeUcd_safe (row : UcdRow) (radical : Nat) (joyo jinmei : Bool) (links : List Str) :
    Safe (makeUcd row radical joyo jinmei links) fun u => u.name = row.name := by
  unfold makeUcd
  refine Safe.bind (Safe.any (ucdStrokes_safe row)) fun _ _ _ => ?_
  refine Safe.bind (Safe.any (getChar32_safe _)) fun _ _ _ => ?_
  refine Safe.bind (ucdEntry_safe _ row.name) fun n _ hn => ?_
  refine Safe.bind (Safe.any (linkType_safe _)) fun _ _ _ => ?_
  refine Safe.bind (Safe.any (getSources_safe _ _ _)) fun _ _ _ => ?_
  refine Safe.bind (Safe.any (morohashi_safe _)) fun _ _ _ => ?_
  exact hn

/-- Where the entries and the links come from. -/
structure UcdFrom (rows : List UcdRow) (d : UcdData) : Prop where
  entry : ∀ p ∈ d.map, p.2.name = p.1 ∧ ∃ r ∈ rows, r.name = p.1
  linked : ∀ p ∈ d.linkedJinmei, ∃ r ∈ rows, r.name = p.2 ∧ p.1 ∈ cellsBetween 0x2c r.linkNames

theorem processLinks_safe (name : Str) (jinmei : Bool) (links : List Str) : ∀ d : UcdData,
    Safe (d.processLinks name jinmei links) fun e => e.map = d.map ∧
      ∀ p ∈ e.linkedJinmei, p ∈ d.linkedJinmei ∨ p.2 = name ∧ p.1 ∈ links := by
  induction links with
  | nil => exact fun d => ⟨rfl, fun p hp => .inl hp⟩
  | cons l ls ih =>
    intro d
    unfold UcdData.processLinks
    split
    · refine (ih _).mono fun e he => ⟨he.1, fun p hp => ?_⟩
      rcases he.2 p hp with h | ⟨h1, h2⟩
      · exact .inl h
      · exact .inr ⟨h1, List.mem_cons_of_mem _ h2⟩
    · split
      · rename_i m hm
        refine (ih _).mono fun e he => ⟨he.1, fun p hp => ?_⟩
        rcases he.2 p hp with h | ⟨h1, h2⟩
        · rcases mapEmplace_mem (m := d.linkedJinmei) (key := l) (value := name) (p := p) (by rw [hm]; exact h) with h | rfl
          · exact .inl h
          · exact .inr ⟨rfl, List.mem_cons_self⟩
        · exact .inr ⟨h1, List.mem_cons_of_mem _ h2⟩
      · trivial

theorem loadRow_safe (rows : List UcdRow) (row : UcdRow) (hr : row ∈ rows) (d : UcdData) (hd : UcdFrom rows d) :
    Safe (d.loadRow row) (UcdFrom rows) := by
  unfold UcdData.loadRow
  split
  · trivial
  split
  · trivial
  refine Safe.bind (Safe.any (processU64_safe _ _)) fun radical _ _ => ?_
  split
  · trivial
  refine Safe.bind (Safe.any (processBool_safe _)) fun joyo _ _ => ?_
  refine Safe.bind (Safe.any (processBool_safe _)) fun jinmei _ _ => ?_
  split
  · trivial
  split
  · trivial
  refine Safe.bind (loadLinks_safe row joyo) fun links _ hl => ?_
  refine Safe.bind (processLinks_safe row.name jinmei links d) fun e _ he => ?_
  have hm := makeUcd_safe row radical joyo jinmei links
  refine Safe.bind (P := fun u => u.name = row.name) ?_ fun u _ hu => ?_
  · cases hx : makeUcd row radical joyo jinmei links with
    | ok u => rw [hx] at hm; exact hm
    | throw _ => trivial
    | ub => rw [hx] at hm; exact hm
  · split
    · rename_i m hmm
      constructor
      · intro p hp
        rcases mapEmplace_mem (m := e.map) (key := row.name) (value := u) (p := p) (by rw [hmm]; exact hp) with h | rfl
        · rw [he.1] at h; exact hd.entry p h
        · exact ⟨hu, row, hr, rfl⟩
      · intro p hp
        rcases he.2 p hp with h | ⟨h1, h2⟩
        · exact hd.linked p h
        · exact ⟨row, hr, h1.symm, hl _ h2⟩
    · trivial

theorem ucdLoad_safe (all rows : List UcdRow) (hr : ∀ r ∈ rows, r ∈ all) : ∀ d, UcdFrom all d →
    Safe (UcdData.load rows d) (UcdFrom all) := by
  induction rows with
  | nil => exact fun d hd => hd
  | cons r rows ih =>
    intro d hd
    exact Safe.bind (loadRow_safe all r (hr r (by simp)) d hd) fun e _ he =>
      ih (fun x hx => hr x (List.mem_cons_of_mem _ hx)) e he

theorem ucdFrom_empty (rows : List UcdRow) : UcdFrom rows {} := ⟨by simp, by simp⟩

theorem insertUcd_mem {u x : UcdRec} {us : List UcdRec} (h : x ∈ insertUcd u us) : x = u ∨ x ∈ us := by
  induction us with
  | nil => simpa [insertUcd] using h
  | cons y us ih =>
    unfold insertUcd at h
    split at h
    · simpa using h
    · rcases List.mem_cons.mp h with rfl | h
      · exact .inr List.mem_cons_self
      · rcases ih h with h | h
        · exact .inl h
        · exact .inr (List.mem_cons_of_mem _ h)

theorem ordered_mem {d : UcdData} {x : UcdRec} (h : x ∈ d.ordered) : ∃ p ∈ d.map, p.2 = x := by
  have key : ∀ (m : List (Str × UcdRec)) r, x ∈ m.foldl (fun r p => insertUcd p.2 r) r → x ∈ r ∨ ∃ p ∈ m, p.2 = x := by
    intro m
    induction m with
    | nil => exact fun r h => .inl h
    | cons p m ih =>
      intro r h
      rcases ih _ h with h | ⟨q, hq, e⟩
      · rcases insertUcd_mem h with rfl | h
        · exact .inr ⟨p, List.mem_cons_self, rfl⟩
        · exact .inl h
      · exact .inr ⟨q, List.mem_cons_of_mem _ hq, e⟩
  rcases key d.map [] h with h | h
  · cases h
  · exact h

/-! ## Radicals -/

theorem findName_safe (d : RadicalData) (n : Str) : d.findName n ≠ .ub := by
  unfold RadicalData.findName
  split
  · exact fun h => by cases h
  · split
    · exact fun h => by cases h
    · split <;> exact fun h => by cases h

theorem findNumber_safe (d : RadicalData) (n : Nat) : d.findNumber n ≠ .ub := by
  unfold RadicalData.findNumber
  split
  · exact fun h => by cases h
  · split
    · exact fun h => by cases h
    · split <;> exact fun h => by cases h

/-! ## Groups and jukugo -/

theorem getFirst_total (s : Str) : ∃ f, getFirst s = some f := by
  obtain ⟨ts, ht⟩ := tokens_exists s
  obtain ⟨st, h, _⟩ := utf8Chars_tokens true ht
  unfold utf8Chars iterate at h
  unfold getFirst
  cases hn : (Utf8CharState.init s).next true with
  | none => rw [hn] at h; cases h
  | some r => exact ⟨_, rfl⟩

theorem createGroup_safe (ms : List Str) : createGroup ms ≠ .ub := by
  unfold createGroup
  split
  · exact fun h => by cases h
  · split
    · exact fun h => by cases h
    · split
      · exact fun h => by cases h
      · split <;> exact fun h => by cases h

theorem readGroup_safe (find : Str → Option KanjiRec) (t : GroupType) (row : GroupRow) : readGroup find t row ≠ .ub := by
  refine Safe.noub (P := fun _ => True) ?_
  unfold readGroup
  split
  · trivial
  split
  · trivial
  split
  · trivial
  refine Safe.bind (P := fun _ => True) ?_ fun names _ _ => ?_
  · unfold getKanjiNames
    split
    · obtain ⟨f, hf⟩ := getFirst_total row.name
      rw [hf]; trivial
    · trivial
  · dsimp only
    split
    · trivial
    · exact Safe.bind (Safe.any (processU64_safe _ _)) fun _ _ _ =>
        Safe.bind (Safe.any (createGroup_safe _)) fun _ _ _ => trivial

theorem loadMeaning_safe (find : Str → Option KanjiRec) (rows : List GroupRow) : ∀ d, loadMeaning find rows d ≠ .ub := by
  induction rows with
  | nil => exact fun _ h => by cases h
  | cons r rows ih =>
    exact fun d => (Safe.bind (Q := fun _ => True) (Safe.any (readGroup_safe find .meaning r)) fun g _ _ =>
      Safe.any (ih _)).noub

theorem loadPattern_safe (find : Str → Option KanjiRec) (rows : List GroupRow) : ∀ d, loadPattern find rows d ≠ .ub := by
  induction rows with
  | nil => exact fun _ h => by cases h
  | cons r rows ih =>
    exact fun d => (Safe.bind (Q := fun _ => True) (Safe.any (readGroup_safe find .pattern r)) fun g _ _ =>
      Safe.any (ih _)).noub

theorem loadJukugo_safe (texts : List Str) : loadJukugo texts ≠ .ub := by
  have h := C83_load texts
  split at h
  · rw [h]; exact fun h => by cases h
  · rename_i ws _
    by_cases ho : OneGrade ws
    · obtain ⟨st, hst, _⟩ := h.1 ho
      rw [hst]; exact fun h => by cases h
    · rw [h.2 ho]; exact fun h => by cases h

end KT
