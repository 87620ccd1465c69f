import Verif.Model.ListFileText
import Verif.Spec.ListFileText
import Verif.Props.ListFile
import Verif.Props.DataDir
/-!
# C138, C139: finding list files, errors of list files

Model: `Verif/Model/ListFileText.lean`.  Specification: `Verif/Spec/ListFileText.lean`.
-/
namespace KT
open Spec

/-! ## C138 -/

/-- The file of a name without extension: the file itself, otherwise the one with `.txt`. -/
theorem C138_file (fs : FileSys) (dir file p : Str) :
    getFile fs dir file = .ok p ↔ fs dir = .directory ∧ fs p = .regular ∧
      (p = joinPath dir file ∨
        (p = joinPath dir file ++ u8!".txt" ∧ hasExtension file = false ∧ fs (joinPath dir file) ≠ .regular)) := by
  unfold getFile
  by_cases hd : fs dir = .directory
  · rw [if_neg (by simp [hd])]
    by_cases hc : fs (joinPath dir file) ≠ .regular ∧ hasExtension file = false
    · simp only [if_pos hc]
      by_cases h1 : fs (joinPath dir file ++ u8!".txt") = .regular
      · rw [if_neg (by simp [h1]), if_neg (by simp [h1])]
        constructor
        · intro h; cases h; exact ⟨hd, h1, .inr ⟨rfl, hc.2, hc.1⟩⟩
        · rintro ⟨_, h, rfl | ⟨rfl, _⟩⟩
          · exact absurd h hc.1
          · rfl
      · constructor
        · intro h
          split at h
          · cases h
          · cases h
        · rintro ⟨_, h, rfl | ⟨rfl, _⟩⟩
          · exact absurd h hc.1
          · exact absurd h h1
    · simp only [if_neg hc]
      by_cases h1 : fs (joinPath dir file) = .regular
      · rw [if_neg (by simp [h1]), if_neg (by simp [h1])]
        constructor
        · intro h; cases h; exact ⟨hd, h1, .inl rfl⟩
        · rintro ⟨_, h, rfl | ⟨rfl, _, h2⟩⟩
          · rfl
          · exact absurd h1 h2
      · constructor
        · intro h
          split at h
          · cases h
          · cases h
        · rintro ⟨_, h, rfl | ⟨rfl, h3, h2⟩⟩
          · exact absurd h h1
          · exact absurd ⟨h2, h3⟩ hc
  · rw [if_pos hd]
    constructor
    · intro h; cases h
    · intro h; exact absurd h.1 hd

/-- The message: the directory is none; there is no such file (with the extension tried if the name has none); or it is no
regular file. -/
theorem C138_message (fs : FileSys) (dir file msg : Str) :
    getFile fs dir file = .error msg ↔
      (fs dir ≠ .directory ∧ msg = dir ++ u8!" is not a directory") ∨
      (fs dir = .directory ∧ fs (joinPath dir file) ≠ .regular ∧
        ((hasExtension file = true ∧ fs (joinPath dir file) = .missing ∧
            msg = dir ++ u8!" must contain '" ++ file ++ u8!"'") ∨
         (hasExtension file = false ∧ fs (joinPath dir file ++ u8!".txt") = .missing ∧
            msg = dir ++ u8!" must contain '" ++ file ++ u8!"' (also tried '.txt' extension)") ∨
         (hasExtension file = true ∧ fs (joinPath dir file) ≠ .missing ∧ msg = file ++ u8!" must be a regular file") ∨
         (hasExtension file = false ∧ fs (joinPath dir file ++ u8!".txt") ≠ .missing ∧
            fs (joinPath dir file ++ u8!".txt") ≠ .regular ∧ msg = file ++ u8!" must be a regular file"))) := by
  unfold getFile
  by_cases hd : fs dir = .directory
  · rw [if_neg (by simp [hd])]
    simp only [hd, ne_eq, not_true_eq_false, false_and, false_or, true_and]
    cases he : hasExtension file
    · simp only [and_true, Bool.false_eq_true, if_false, false_and, true_and, false_or]
      generalize dir ++ u8!" must contain '" ++ file ++ u8!"' (also tried '.txt' extension)" = m1
      generalize file ++ u8!" must be a regular file" = m2
      generalize joinPath dir file ++ u8!".txt" = p2
      generalize joinPath dir file = p1
      cases h1 : fs p1 <;> cases h2 : fs p2 <;> simp [h1, h2, eq_comm]
    · simp only [Bool.true_eq_false, and_false, if_false, if_true, false_and, true_and, false_or, or_false]
      generalize dir ++ u8!" must contain '" ++ file ++ u8!"'" = m1
      generalize file ++ u8!" must be a regular file" = m2
      generalize joinPath dir file = p1
      cases h1 : fs p1 <;> simp [eq_comm]
  · rw [if_pos hd]
    generalize dir ++ u8!" is not a directory" = m
    constructor
    · intro h; cases h; exact .inl ⟨hd, rfl⟩
    · rintro (⟨_, rfl⟩ | ⟨h, _⟩)
      · rfl
      · exact absurd h hd

/-- The constructor finds the same file for the same path, and names the list after it. -/
theorem C138_open (fs : FileSys) (p name file shown : Str) :
    openListFile fs p name = .ok (shown, file) ↔ fs file = .regular ∧
      (file = p ∨ (file = p ++ u8!".txt" ∧ hasExtension p = false ∧ fs p ≠ .regular)) ∧
      shown = if name = [] then firstUpper (stemOf (fileNameOf p)) else name := by
  unfold openListFile
  by_cases hc : fs p ≠ .regular ∧ hasExtension p = false
  · simp only [if_pos hc]
    by_cases h1 : fs (p ++ u8!".txt") = .regular
    · rw [if_neg (by simp [h1])]
      constructor
      · intro h; cases h; exact ⟨h1, .inr ⟨rfl, hc.2, hc.1⟩, rfl⟩
      · rintro ⟨h, rfl | ⟨rfl, _⟩, rfl⟩
        · exact absurd h hc.1
        · rfl
    · rw [if_pos h1]
      constructor
      · intro h; cases h
      · rintro ⟨h, rfl | ⟨rfl, _⟩, rfl⟩
        · exact absurd h hc.1
        · exact absurd h h1
  · simp only [if_neg hc]
    by_cases h1 : fs p = .regular
    · rw [if_neg (by simp [h1])]
      constructor
      · intro h; cases h; exact ⟨h1, .inl rfl, rfl⟩
      · rintro ⟨h, rfl | ⟨rfl, _, h2⟩, rfl⟩
        · rfl
        · exact absurd h1 h2
    · rw [if_pos h1]
      constructor
      · intro h; cases h
      · rintro ⟨h, rfl | ⟨rfl, h3, h2⟩, rfl⟩
        · exact absurd h h1
        · exact absurd ⟨h2, h3⟩ hc

theorem slashParts_plain (s : Str) (h : (0x2f : UInt8) ∉ s) : slashParts s = [s] := by
  induction s with
  | nil => rfl
  | cons c s ih =>
    rw [slashParts, if_neg (fun e => h (by rw [e]; simp)), ih fun hm => h (List.mem_cons_of_mem _ hm)]

theorem slashParts_ne (s : Str) : slashParts s ≠ [] := by
  cases s with
  | nil => simp [slashParts]
  | cons c s =>
    rw [slashParts]
    split
    · simp
    · split <;> simp

theorem slashParts_join (a b : Str) : (slashParts (a ++ 0x2f :: b)).getLast? = (slashParts b).getLast? := by
  induction a with
  | nil =>
    rw [List.nil_append, slashParts, if_pos rfl]
    cases hs : slashParts b with
    | nil => exact absurd hs (slashParts_ne b)
    | cons x xs => simp [List.getLast?_cons_cons]
  | cons c a ih =>
    rw [List.cons_append, slashParts]
    split
    · cases hs : slashParts (a ++ 0x2f :: b) with
      | nil => exact absurd hs (slashParts_ne _)
      | cons x xs => rw [hs] at ih; rw [List.getLast?_cons_cons]; exact ih
    · have hl : 2 ≤ (slashParts (a ++ 0x2f :: b)).length := by
        clear ih
        induction a with
        | nil =>
          rw [List.nil_append, slashParts, if_pos rfl]
          cases hs : slashParts b with
          | nil => exact absurd hs (slashParts_ne b)
          | cons => simp
        | cons x a ih =>
          rw [List.cons_append, slashParts]
          split
          · simp; omega
          · split
            · rename_i hx; rw [hx] at ih; simp at ih
            · rename_i hx; rw [hx] at ih; simpa using ih
      cases hs : slashParts (a ++ 0x2f :: b) with
      | nil => rw [hs] at hl; simp at hl
      | cons x xs =>
        rw [hs] at hl ih
        cases xs with
        | nil => simp at hl
        | cons y ys => rw [← ih]; simp [List.getLast?_cons_cons]

/-- The file name of a file in a directory. -/
theorem fileNameOf_join (dir file : Str) (h : (0x2f : UInt8) ∉ file) : fileNameOf (joinPath dir file) = file := by
  have key : ∀ a : Str, (a = [] ∨ a.getLast? = some 0x2f) → fileNameOf (a ++ file) = file := by
    intro a ha
    rcases ha with rfl | ha
    · rw [List.nil_append, fileNameOf, slashParts_plain file h]; rfl
    · have : a = a.dropLast ++ [0x2f] := by
        rw [List.getLast?_eq_some_iff] at ha
        obtain ⟨x, rfl⟩ := ha
        simp
      rw [this, List.append_assoc, List.singleton_append, fileNameOf, slashParts_join, slashParts_plain file h]; rfl
  unfold joinPath
  split
  · rename_i hc
    rw [List.append_nil]
    exact key dir hc
  · exact key (dir ++ u8!"/") (.inr (by simp))

/-- `getFile` in a directory and the constructor for the path in it find the same file. -/
theorem C138_same (fs : FileSys) (dir file p name : Str) (hf : (0x2f : UInt8) ∉ file) (hd : fs dir = .directory) :
    getFile fs dir file = .ok p ↔ ∃ shown, openListFile fs (joinPath dir file) name = .ok (shown, p) := by
  have he : hasExtension (joinPath dir file) = hasExtension file := by
    unfold hasExtension
    rw [fileNameOf_join dir file hf, fileNameOf, slashParts_plain file hf]; rfl
  rw [C138_file]
  constructor
  · rintro ⟨_, h1, h2⟩
    refine ⟨_, (C138_open fs _ name p _).2 ⟨h1, ?_, rfl⟩⟩
    rw [he]; exact h2
  · rintro ⟨shown, h⟩
    obtain ⟨h1, h2, _⟩ := (C138_open fs _ name p shown).1 h
    rw [he] at h2
    exact ⟨hd, h1, h2⟩

/-- Stem and extension make up the name; a name that isn't empty has a stem that isn't; the extension is empty or has its
only dot at the beginning. -/
theorem C138_stem (n : Str) :
    stemOf n ++ extensionOf n = n ∧ (n ≠ [] → stemOf n ≠ []) ∧
    (extensionOf n = [] ∨ ∃ r, extensionOf n = 0x2e :: r ∧ (0x2e : UInt8) ∉ r) := by
  unfold stemOf extensionOf
  by_cases h : n = u8!".."
  · rw [if_pos h, if_pos h]; exact ⟨by simp, fun h => h, .inl rfl⟩
  rw [if_neg h, if_neg h]
  cases hd : lastDot n with
  | none => exact ⟨by simp, fun h => h, .inl rfl⟩
  | some p =>
    obtain ⟨a, b⟩ := p
    obtain ⟨r, h1, h2, h3⟩ := (lastDot_some n a b).1 hd
    by_cases ha : a = []
    · simp only [if_pos ha]
      exact ⟨by simp, fun h => h, .inl trivial⟩
    · simp only [if_neg ha]
      exact ⟨h1.symm, fun _ => ha, .inr ⟨r, h2, h3⟩⟩

/-! ## C139 -/

/-- The text for a problem with a token. -/
def problemText (token : Str) : TokenProblem → Str
  | .multiple => u8!"got multiple tokens"
  | .invalid => u8!"invalid multi-byte token '" ++ token ++ u8!"'"
  | .duplicate => u8!"got duplicate token '" ++ token
  | .nonUnique => u8!"found globally non-unique entry '" ++ token ++ u8!"'"
  | .tooMany => u8!"exceeded '65534' entries"

/-- The lines of a text with their numbers from `n` and their tokens. -/
def numberedTokens : Nat → List Str → List (Nat × Str × Str)
  | _, [] => []
  | n, l :: ls => (dropEmptyLast (split 0x20 l)).map (fun t => (n, l, t)) ++ numberedTokens (n + 1) ls

/-- What the state holds after tokens without problem. -/
structure AfterTokens (names before : List Str) (st : LoadState) : Prop where
  map : ∀ s, (st.map.lookup s).isSome = true ↔ s ∈ before ∧ s ∉ names
  seen : ∀ s, s ∈ st.names ↔ s ∈ names ∨ s ∈ before
  list : st.list = before.filter fun t => !names.contains t
  dups : st.dups = before.filter fun t => names.contains t

theorem lookup_append_isSome {β : Type} (m : List (Str × β)) (s k : Str) (v : β) :
    ((m ++ [(k, v)]).lookup s).isSome = true ↔ (m.lookup s).isSome = true ∨ s = k := by
  induction m with
  | nil =>
    by_cases h : s = k
    · subst h; simp
    · have : (s == k) = false := by simpa using h
      simp [List.lookup_cons, this, h]
  | cons p m ih =>
    obtain ⟨a, b⟩ := p
    by_cases h : s = a
    · subst h; simp
    · have : (s == a) = false := by simpa using h
      rw [List.cons_append, List.lookup_cons, List.lookup_cons, this]
      exact ih

theorem loadTokenError_spec (o ty : Bool) (names before : List Str) (line token : Str) (st : LoadState)
    (h : AfterTokens names before st) :
    match tokenProblem o ty names before line token with
    | some p => (loadTokenError o ty line st token).2 = some (problemText token p, decide (p ≠ .tooMany))
    | none => (loadTokenError o ty line st token).2 = none ∧
        AfterTokens names (before ++ [token]) (loadTokenError o ty line st token).1 := by
  unfold tokenProblem loadTokenError
  by_cases h1 : o = true ∧ token ≠ line
  · rw [if_pos h1, if_pos h1]; rfl
  rw [if_neg h1, if_neg h1]
  by_cases h2 : isValidMBUtf8 token true ≠ some true
  · rw [if_pos h2, if_pos h2]; rfl
  rw [if_neg h2, if_neg h2]
  by_cases h3 : token ∉ names ∧ token ∈ before
  · rw [if_pos h3, if_pos ((h.map token).2 ⟨h3.2, h3.1⟩)]; rfl
  have h3' : ¬ (st.map.lookup token).isSome = true := fun g => h3 ⟨((h.map token).1 g).2, ((h.map token).1 g).1⟩
  rw [if_neg h3, if_neg h3']
  by_cases h4 : token ∈ names
  · have h4' : st.names.contains token = true := List.contains_iff_mem.2 ((h.seen token).2 (.inl h4))
    rw [if_pos h4, if_pos h4']
    cases ty
    · rfl
    · refine ⟨rfl, ?_, ?_, ?_, ?_⟩
      · intro s
        show (st.map.lookup s).isSome = true ↔ _
        rw [h.map]
        simp only [List.mem_append, List.mem_singleton]
        constructor
        · rintro ⟨a, b⟩; exact ⟨.inl a, b⟩
        · rintro ⟨a | rfl, b⟩
          · exact ⟨a, b⟩
          · exact absurd h4 b
      · intro s
        show s ∈ st.names ↔ _
        rw [h.seen]
        simp only [List.mem_append, List.mem_singleton]
        constructor
        · rintro (a | a)
          · exact .inl a
          · exact .inr (.inl a)
        · rintro (a | a | rfl)
          · exact .inl a
          · exact .inr a
          · exact .inl h4
      · show st.list = _
        rw [h.list, List.filter_append]; simp [h4]
      · show st.dups ++ [token] = _
        rw [h.dups, List.filter_append]; simp [h4]
  · have hb : token ∉ before := fun g => h3 ⟨h4, g⟩
    have h4' : ¬ st.names.contains token = true := by
      rw [List.contains_iff_mem, h.seen]; rintro (g | g)
      · exact h4 g
      · exact hb g
    rw [if_neg h4, if_neg h4']
    unfold ListFile.addEntry
    by_cases h5 : (before.filter fun t => !names.contains t).length = 65534
    · rw [if_pos h5, if_pos (by show st.list.length = maxEntries; rw [h.list]; exact h5)]
      have : toDec maxEntries = u8!"65534" := by decide +kernel
      simp only [this]; rfl
    · rw [if_neg h5, if_neg (by show ¬ st.list.length = maxEntries; rw [h.list]; exact h5)]
      refine ⟨rfl, ?_, ?_, ?_, ?_⟩
      · intro s
        show ((st.map ++ [(token, (st.list.length + 1) % 65536)]).lookup s).isSome = true ↔ _
        rw [lookup_append_isSome, h.map]
        simp only [List.mem_append, List.mem_singleton]
        constructor
        · rintro (⟨a, b⟩ | rfl)
          · exact ⟨.inl a, b⟩
          · exact ⟨.inr rfl, h4⟩
        · rintro ⟨a | rfl, b⟩
          · exact .inl ⟨a, b⟩
          · exact .inr rfl
      · intro s
        show s ∈ token :: st.names ↔ _
        simp only [List.mem_cons, List.mem_append, h.seen, List.not_mem_nil, or_false]
        constructor
        · rintro (rfl | a | a)
          · exact .inr (.inr rfl)
          · exact .inl a
          · exact .inr (.inl a)
        · rintro (a | a | rfl)
          · exact .inr (.inl a)
          · exact .inr (.inr a)
          · exact .inl rfl
      · show st.list ++ [token] = _
        rw [h.list, List.filter_append]; simp [h4]
      · show st.dups = _
        rw [h.dups, List.filter_append]; simp [h4]

/-- The loops as one loop over the tokens. -/
theorem firstProblem_append (o ty : Bool) (names before : List Str) (a b : List (Nat × Str × Str)) :
    firstProblem o ty names before (a ++ b) = match firstProblem o ty names before a with
      | some p => some p
      | none => firstProblem o ty names (before ++ a.map (·.2.2)) b := by
  induction a generalizing before with
  | nil => simp [firstProblem]
  | cons x a ih =>
    obtain ⟨n, line, token⟩ := x
    rw [List.cons_append, firstProblem, firstProblem]
    cases tokenProblem o ty names before line token with
    | some p => rfl
    | none => simp only [ih, List.map_cons, List.append_assoc, List.singleton_append]

theorem loadTokensError_spec (o ty : Bool) (names : List Str) (n : Nat) (line : Str) (ts before : List Str) (st : LoadState)
    (h : AfterTokens names before st) :
    match firstProblem o ty names before (ts.map fun t => (n, line, t)) with
    | some p => (loadTokensError o ty line ts st).2 = some (problemText p.2.1 p.2.2, decide (p.2.2 ≠ .tooMany)) ∧ p.1 = n
    | none => (loadTokensError o ty line ts st).2 = none ∧ AfterTokens names (before ++ ts) (loadTokensError o ty line ts st).1 := by
  induction ts generalizing before st with
  | nil => simpa [firstProblem, loadTokensError] using h
  | cons t ts ih =>
    have hs := loadTokenError_spec o ty names before line t st h
    rw [List.map_cons, firstProblem, loadTokensError]
    cases hp : tokenProblem o ty names before line t with
    | some p =>
      rw [hp] at hs
      generalize loadTokenError o ty line st t = r at hs
      obtain ⟨r1, r2⟩ := r
      simp only at hs
      subst hs
      exact ⟨rfl, rfl⟩
    | none =>
      rw [hp] at hs
      generalize loadTokenError o ty line st t = r at hs
      obtain ⟨r1, r2⟩ := r
      simp only at hs
      obtain ⟨rfl, h2⟩ := hs
      have := ih (before ++ [t]) r1 h2
      simpa only [List.append_assoc, List.singleton_append] using this

theorem loadLinesError_spec (o ty : Bool) (names : List Str) (file : Str) (ls : List Str) (n : Nat) (before : List Str)
    (st : LoadState) (h : AfterTokens names before st) :
    match firstProblem o ty names before (numberedTokens n ls) with
    | some p => (loadLinesError o ty file n ls st).2 =
        some (problemText p.2.1 p.2.2 ++ (if p.2.2 ≠ .tooMany then u8!" - line: " ++ toDec p.1 else []) ++ u8!", file: " ++ file)
    | none => (loadLinesError o ty file n ls st).2 = none ∧
        AfterTokens names (before ++ (numberedTokens n ls).map (·.2.2)) (loadLinesError o ty file n ls st).1 := by
  induction ls generalizing n before st with
  | nil => simpa [numberedTokens, firstProblem, loadLinesError] using h
  | cons l ls ih =>
    have hs := loadTokensError_spec o ty names n l (dropEmptyLast (split 0x20 l)) before st h
    rw [numberedTokens, firstProblem_append, loadLinesError, fields_eq]
    cases hp : firstProblem o ty names before ((dropEmptyLast (split 0x20 l)).map fun t => (n, l, t)) with
    | some p =>
      rw [hp] at hs
      generalize loadTokensError o ty l (dropEmptyLast (split 0x20 l)) st = r at hs
      obtain ⟨r1, r2⟩ := r
      simp only at hs
      obtain ⟨rfl, hn⟩ := hs
      simp only [loadErrorText, hn, decide_eq_true_eq]
    | none =>
      rw [hp] at hs
      generalize loadTokensError o ty l (dropEmptyLast (split 0x20 l)) st = r at hs
      obtain ⟨r1, r2⟩ := r
      simp only at hs
      obtain ⟨rfl, h2⟩ := hs
      have := ih (n + 1) (before ++ dropEmptyLast (split 0x20 l)) r1 h2
      simp only [List.map_append, List.map_map, Function.comp_def, List.map_id', List.append_assoc] at this ⊢
      exact this

/-- The message of `load`: the first token with a problem, with the number of its line (from 1); if there is none, all tokens
that were in an earlier file of the kind, in order. -/
theorem C139_message_partial (o ty : Bool) (names : List Str) (name file text : Str) :
    let tokens := numberedTokens 1 (dropEmptyLast (split 0x0a text))
    let dups := (tokens.map (·.2.2)).filter fun t => names.contains t
    (loadError o ty names name file text).2 =
      match firstProblem o ty names [] tokens with
      | some (n, token, p) => some (problemText token p ++ (if p ≠ .tooMany then u8!" - line: " ++ toDec n else []) ++
          u8!", file: " ++ file)
      | none => if dups = [] then none
        else some (u8!"found " ++ toDec dups.length ++ u8!" duplicates in " ++ name ++ u8!":" ++
          (dups.map fun d => u8!" " ++ d).flatten ++ u8!", file: " ++ file) := by
  intro tokens dups
  have h0 : AfterTokens names [] { names := names } :=
    ⟨fun s => by simp, fun s => by simp, by simp, by simp⟩
  have hs := loadLinesError_spec o ty names file (dropEmptyLast (split 0x0a text)) 1 [] _ h0
  unfold loadError
  rw [fields_eq]
  cases hp : firstProblem o ty names [] (numberedTokens 1 (dropEmptyLast (split 0x0a text))) with
  | some p =>
    rw [hp] at hs
    generalize loadLinesError o ty file 1 (dropEmptyLast (split 0x0a text)) { names := names } = r at hs
    obtain ⟨r1, r2⟩ := r
    simp only at hs
    subst hs
    rfl
  | none =>
    rw [hp] at hs
    generalize loadLinesError o ty file 1 (dropEmptyLast (split 0x0a text)) { names := names } = r at hs
    obtain ⟨r1, r2⟩ := r
    simp only [List.nil_append] at hs
    obtain ⟨rfl, h2⟩ := hs
    have hd : r1.dups = dups := h2.dups
    simp only [hd]
    by_cases hn : dups = []
    · rw [if_pos hn, if_pos hn]
    · rw [if_neg hn, if_neg hn]
      simp [loadErrorText]

/-- What the steps of the two versions of `load` have in common. -/
def SameOutcome {α : Type} (a : LoadState × Res Unit) (b : LoadState × Option α) : Prop :=
  a.1 = b.1 ∧ a.2 = if b.2.isSome then .throw .domain else .ok ()

theorem loadToken_same (o ty : Bool) (line : Str) (st : LoadState) (t : Str) :
    SameOutcome (ListFile.loadToken o ty line st t) (loadTokenError o ty line st t) := by
  unfold ListFile.loadToken loadTokenError ListFile.validate
  by_cases h1 : o = true ∧ t ≠ line
  · rw [if_pos h1, if_pos h1]; exact ⟨rfl, rfl⟩
  rw [if_neg h1, if_neg h1]
  obtain ⟨r, hr⟩ := C05_total t true
  have hv : isValidMBUtf8 t true = some (r.1 == .valid) := by rw [isValidMBUtf8, hr]; rfl
  rw [hv]
  cases r.1 == .valid with
  | false =>
    have : ¬ (some false = some true) := by simp
    simp only [ne_eq, this, not_false_eq_true, if_true]; exact ⟨rfl, rfl⟩
  | true =>
    simp only [ne_eq, not_true_eq_false, if_false]
    by_cases h3 : (st.map.lookup t).isSome = true
    · simp only [if_pos h3]; exact ⟨rfl, rfl⟩
    simp only [if_neg h3]
    by_cases h4 : st.names.contains t = true
    · simp only [if_pos h4]
      cases ty <;> exact ⟨rfl, rfl⟩
    simp only [if_neg h4]
    unfold ListFile.addEntry
    by_cases h5 : st.list.length = maxEntries
    · simp only [if_pos h5]; exact ⟨rfl, rfl⟩
    · simp only [if_neg h5]; exact ⟨rfl, rfl⟩

theorem loadTokens_same (o ty : Bool) (line : Str) (ts : List Str) (st : LoadState) :
    SameOutcome (ListFile.loadTokens o ty line ts st) (loadTokensError o ty line ts st) := by
  induction ts generalizing st with
  | nil => exact ⟨rfl, rfl⟩
  | cons t ts ih =>
    have h := loadToken_same o ty line st t
    rw [ListFile.loadTokens, loadTokensError]
    generalize ListFile.loadToken o ty line st t = a at h
    generalize loadTokenError o ty line st t = b at h
    obtain ⟨a1, a2⟩ := a
    obtain ⟨b1, b2⟩ := b
    obtain ⟨h1, h2⟩ := h
    simp only at h1 h2
    subst h1 h2
    cases b2 with
    | none => exact ih a1
    | some e => exact ⟨rfl, rfl⟩

theorem loadLines_same (o ty : Bool) (file : Str) (ls : List Str) (n : Nat) (st : LoadState) :
    SameOutcome (ListFile.loadLines o ty ls st) (loadLinesError o ty file n ls st) := by
  induction ls generalizing st n with
  | nil => exact ⟨rfl, rfl⟩
  | cons l ls ih =>
    have h := loadTokens_same o ty l (fields 0x20 l) st
    rw [ListFile.loadLines, loadLinesError]
    generalize ListFile.loadTokens o ty l (fields 0x20 l) st = a at h
    generalize loadTokensError o ty l (fields 0x20 l) st = b at h
    obtain ⟨a1, a2⟩ := a
    obtain ⟨b1, b2⟩ := b
    obtain ⟨h1, h2⟩ := h
    simp only at h1 h2
    subst h1 h2
    cases b2 with
    | none => exact ih (n + 1) a1
    | some e => exact ⟨rfl, rfl⟩

/-- The version of `load` with messages leaves the same state, and there is a message exactly when `load` throws. -/
theorem C139_agrees (o ty : Bool) (names : List Str) (name file text : Str) :
    (ListFile.load o ty names text).1 = (loadError o ty names name file text).1 ∧
    (ListFile.load o ty names text).2 =
      if (loadError o ty names name file text).2.isSome then .throw .domain else .ok () := by
  have h := loadLines_same o ty file (fields 0x0a text) 1 { names := names }
  unfold ListFile.load loadError
  generalize ListFile.loadLines o ty (fields 0x0a text) { names := names } = a at h
  generalize loadLinesError o ty file 1 (fields 0x0a text) { names := names } = b at h
  obtain ⟨a1, a2⟩ := a
  obtain ⟨b1, b2⟩ := b
  obtain ⟨h1, h2⟩ := h
  simp only at h1 h2
  subst h1 h2
  cases b2 with
  | none =>
    simp only [Option.isSome_none, Bool.false_eq_true, if_false]
    by_cases hd : a1.dups = []
    · simp [if_pos hd]
    · simp [if_neg hd]
  | some e => exact ⟨rfl, rfl⟩

/-- A file loads exactly if no token has a problem and none was in an earlier file. -/
theorem C139_loads (o ty : Bool) (names : List Str) (text : Str) :
    (ListFile.load o ty names text).2 = .ok () ↔
      firstProblem o ty names [] (numberedTokens 1 (dropEmptyLast (split 0x0a text))) = none ∧
      ∀ t ∈ fileTokens text, t ∉ names := by
  have hm := C139_message_partial o ty names [] [] text
  have ht : (numberedTokens 1 (dropEmptyLast (split 0x0a text))).map (·.2.2) = fileTokens text := by
    unfold fileTokens
    generalize dropEmptyLast (split 0x0a text) = ls
    generalize 1 = n
    induction ls generalizing n with
    | nil => rfl
    | cons l ls ih => simp [numberedTokens, ih, Function.comp_def]
  simp only [ht] at hm
  rw [(C139_agrees o ty names [] [] text).2, hm]
  cases hp : firstProblem o ty names [] (numberedTokens 1 (dropEmptyLast (split 0x0a text))) with
  | some p => simp
  | none =>
    simp only [true_and]
    have hf : ((fileTokens text).filter fun t => names.contains t) = [] ↔ ∀ t ∈ fileTokens text, t ∉ names := by
      rw [List.filter_eq_nil_iff]
      simp
    rw [← hf]
    simp

/-- The message for several tokens should be given only for a line with several tokens. -/
def C139_statement : Prop :=
  ∀ (ty : Bool) (names : List Str) (name file text : Str) (n : Nat),
    (loadError true ty names name file text).2 = some (u8!"got multiple tokens - line: " ++ toDec n ++ u8!", file: " ++ file) →
    ∃ l, (dropEmptyLast (split 0x0a text))[n - 1]? = some l ∧ 2 ≤ (dropEmptyLast (split 0x20 l)).length

/-- A space after the only token of a line gives the message. -/
theorem C139_violated : ¬ C139_statement := by
  intro h
  obtain ⟨l, h1, h2⟩ := h false [] [] [] (u8!"犬 ") 1 (by decide +kernel)
  have : l = u8!"犬 " := by
    have he : (dropEmptyLast (split 0x0a (u8!"犬 ")))[1 - 1]? = some (u8!"犬 ") := by decide +kernel
    rw [he] at h1
    exact (Option.some.inj h1).symm
  subst this
  revert h2
  decide +kernel

/-! ## Examples (the cases of tests/kanji/ListFileTest.cpp) -/

/-- A directory with a file of each kind. -/
def exampleFs : FileSys := fun p =>
  if p = u8!"testDir" then .directory
  else if p = u8!"testDir/test.txt" then .regular
  else if p = u8!"testDir/notRegular" ∨ p = u8!"testDir/notRegular.txt" then .directory
  else .missing

/-- The outcome of `getFile` as a pair: whether there is a file, and its path or the message. -/
def outcome : Except Str Str → Bool × Str
  | .ok p => (true, p)
  | .error m => (false, m)

example : outcome (getFile exampleFs (u8!"testDir") (u8!"test.txt")) = (true, u8!"testDir/test.txt") := by decide +kernel
example : outcome (getFile exampleFs (u8!"testDir") (u8!"test")) = (true, u8!"testDir/test.txt") := by decide +kernel
example : outcome (getFile exampleFs (u8!"testDir") (u8!"missing.txt")) =
    (false, u8!"testDir must contain 'missing.txt'") := by decide +kernel
example : outcome (getFile exampleFs (u8!"testDir") (u8!"missing")) =
    (false, u8!"testDir must contain 'missing' (also tried '.txt' extension)") := by decide +kernel
example : outcome (getFile exampleFs (u8!"testDir") (u8!"notRegular")) =
    (false, u8!"notRegular must be a regular file") := by decide +kernel
example : outcome (getFile exampleFs (u8!"testDir/test.txt") (u8!"x")) =
    (false, u8!"testDir/test.txt is not a directory") := by decide +kernel
example : (match openListFile exampleFs (u8!"testDir/test") [] with | .ok p => some p | .error _ => none) =
    some (u8!"Test", u8!"testDir/test.txt") := by decide +kernel
example : (match openListFile exampleFs (u8!"testDir/none") [] with | .ok _ => [] | .error m => m) =
    u8!"can't open testDir/none.txt" := by decide +kernel
example : (loadError true false [] [] (u8!"testDir/badOnePerLine") (u8!"東 西 線\n")).2 =
    some (u8!"got multiple tokens - line: 1, file: testDir/badOnePerLine") := by decide +kernel
example : (loadError false false [u8!"東"] [] (u8!"f") (u8!"東 西 線\n")).2 =
    some (u8!"found globally non-unique entry '東' - line: 1, file: f") := by decide +kernel
example : (loadError true true [u8!"犬", u8!"猫", u8!"虎"] (u8!"N3") (u8!"f") (u8!"犬\n猫\n虎\n")).2 =
    some (u8!"found 3 duplicates in N3: 犬 猫 虎, file: f") := by decide +kernel
example : (loadError true false [] [] (u8!"f") (u8!"a\n")).2 =
    some (u8!"invalid multi-byte token 'a' - line: 1, file: f") := by decide +kernel
example : (loadError true false [] [] (u8!"f") (u8!"車\n車\n")).2 =
    some (u8!"got duplicate token '車 - line: 2, file: f") := by decide +kernel
example : (loadError true true [] [] (u8!"f") (u8!"車\n犬\n")).2 = none := by decide +kernel

end KT
