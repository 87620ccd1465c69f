import Verif.Model.ListFile
import Verif.Props.Utf8
import Verif.Lemmas.ColumnFile
import Verif.Lemmas.Kana
/-!
# C40, C41: list files

Specification: `Verif/Spec/Text.lean`.  Model: `Verif/Model/ListFile.lean`.
-/
namespace KT
open Spec

/-- The space separated tokens of the lines of a file; empty tokens are kept except for one at the
end of a line. -/
def fileTokens (text : Str) : List Str :=
  (dropEmptyLast (split 0x0a text)).flatMap fun l => dropEmptyLast (split 0x20 l)

/-- Entries with their positions, starting at `k + 1`. -/
def positions : Nat → List Str → List (Str × Nat)
  | _, [] => []
  | k, e :: es => (e, k + 1) :: positions (k + 1) es

theorem positions_append (k : Nat) (a b : List Str) :
    positions k (a ++ b) = positions k a ++ positions (k + a.length) b := by
  induction a generalizing k with
  | nil => simp [positions]
  | cons e a ih => simp only [List.cons_append, positions, ih, List.length_cons]; congr 3; omega

theorem positions_fst (k : Nat) (a : List Str) : (positions k a).map Prod.fst = a := by
  induction a generalizing k with
  | nil => rfl
  | cons e a ih => simp [positions, ih]

theorem positions_mem (k : Nat) (a : List Str) (e : Str) (n : Nat) :
    (e, n) ∈ positions k a ↔ ∃ i, n = k + i + 1 ∧ a[i]? = some e := by
  induction a generalizing k with
  | nil => simp [positions]
  | cons x a ih =>
    simp only [positions, List.mem_cons, ih, Prod.mk.injEq]
    constructor
    · rintro (⟨rfl, rfl⟩ | ⟨i, h1, h2⟩)
      · exact ⟨0, by omega, rfl⟩
      · exact ⟨i + 1, by omega, by simpa using h2⟩
    · rintro ⟨i, h1, h2⟩
      cases i with
      | zero => exact .inl ⟨by simpa using h2.symm, by omega⟩
      | succ i => exact .inr ⟨i, by omega, by simpa using h2⟩

theorem lookup_none_iff {α : Type} (m : List (Str × α)) (s : Str) :
    m.lookup s = none ↔ s ∉ m.map Prod.fst := by
  induction m with
  | nil => simp
  | cons p m ih =>
    obtain ⟨k, v⟩ := p
    by_cases h : s = k
    · subst h; simp
    · have : (s == k) = false := by simpa using h
      simp [List.lookup_cons, this, ih, h]

/-- What holds while loading, after the tokens `toks` of the file. -/
structure LoadInv (names : List Str) (toks : List Str) (st : LoadState) : Prop where
  map : st.map = positions 0 st.list
  nodup : st.list.Nodup
  bound : st.list.length ≤ maxEntries
  valid : ∀ e ∈ st.list, isValidMBUtf8 e true = some true
  sub : ∀ e ∈ st.list, e ∈ st.names
  old : ∀ e ∈ names, e ∈ st.names
  fresh : ∀ e ∈ st.list, e ∉ names
  all : st.dups = [] → st.list = toks

theorem loadToken_inv {names toks : List Str} {o ty : Bool} {line token : Str} {st : LoadState}
    (h : LoadInv names toks st) :
    let r := ListFile.loadToken o ty line st token
    (∀ e ∈ st.names, e ∈ r.1.names) ∧
    (r.2 = .ok () → LoadInv names (toks ++ [token]) r.1 ∧ (o = true → token = line) ∧ (ty = false → r.1.dups = st.dups)) := by
  intro r
  have hr : r = ListFile.loadToken o ty line st token := rfl
  unfold ListFile.loadToken at hr
  by_cases ho : o = true ∧ token ≠ line
  · rw [if_pos ho] at hr; rw [hr]; exact ⟨fun _ h => h, fun h => by cases h⟩
  · rw [if_neg ho] at hr
    have ho' : o = true → token = line := fun h1 => Classical.byContradiction fun h2 => ho ⟨h1, h2⟩
    unfold ListFile.validate at hr
    cases hv : isValidMBUtf8 token true with
    | none => rw [hv] at hr; rw [hr]; exact ⟨fun _ h => h, fun h => by cases h⟩
    | some b =>
      rw [hv] at hr
      cases b with
      | false => rw [hr]; exact ⟨fun _ h => h, fun h => by cases h⟩
      | true =>
        simp only at hr
        by_cases hm : (st.map.lookup token).isSome = true
        · rw [if_pos hm] at hr; rw [hr]; exact ⟨fun _ h => h, fun h => by cases h⟩
        · rw [if_neg hm] at hr
          have hnl : token ∉ st.list := by
            have : st.map.lookup token = none := by
              cases hl : st.map.lookup token with
              | none => rfl
              | some v => rw [hl] at hm; exact absurd rfl hm
            rw [lookup_none_iff, h.map, positions_fst] at this
            exact this
          by_cases hn : st.names.contains token = true
          · rw [if_pos hn] at hr
            cases ty with
            | false => simp only [Bool.false_eq_true, if_false] at hr; rw [hr]; exact ⟨fun _ h => h, fun h => by cases h⟩
            | true =>
              simp only [if_true] at hr
              rw [hr]
              refine ⟨fun _ h => h, fun _ => ⟨⟨h.map, h.nodup, h.bound, h.valid, h.sub, h.old, h.fresh, ?_⟩, ho', ?_⟩⟩
              · intro hd; simp at hd
              · intro h; cases h
          · rw [if_neg hn] at hr
            have hn' : token ∉ st.names := fun hc => hn (List.contains_iff_mem.mpr hc)
            simp only [ListFile.addEntry] at hr
            by_cases hb : st.list.length = maxEntries
            · rw [if_pos hb] at hr
              rw [hr]; exact ⟨fun _ h => List.mem_cons_of_mem _ h, fun h => by cases h⟩
            · rw [if_neg hb] at hr
              simp only at hr
              rw [hr]
              have hbound := h.bound
              refine ⟨fun _ h => List.mem_cons_of_mem _ h, fun _ => ⟨⟨?_, ?_, ?_, ?_, ?_, ?_, ?_, ?_⟩, ho', fun _ => rfl⟩⟩
              · simp only [positions_append, h.map, positions, Nat.zero_add]
                unfold maxEntries at hbound hb
                rw [Nat.mod_eq_of_lt (by omega)]
              · rw [List.nodup_append]
                refine ⟨h.nodup, by simp, ?_⟩
                intro a ha b hb
                rw [List.mem_singleton] at hb; subst hb
                rintro rfl; exact hnl ha
              · simp only [List.length_append, List.length_singleton]; omega
              · intro e he
                rcases List.mem_append.mp he with he | he
                · exact h.valid e he
                · rw [List.mem_singleton] at he; subst he; exact hv
              · intro e he
                rcases List.mem_append.mp he with he | he
                · exact List.mem_cons_of_mem _ (h.sub e he)
                · rw [List.mem_singleton] at he; subst he; exact List.mem_cons_self
              · exact fun e he => List.mem_cons_of_mem _ (h.old e he)
              · intro e he
                rcases List.mem_append.mp he with he | he
                · exact h.fresh e he
                · rw [List.mem_singleton] at he; subst he; exact fun hc => hn' (h.old _ hc)
              · intro hd
                simp only at hd ⊢
                rw [h.all hd]

theorem loadTokens_inv {names : List Str} {o ty : Bool} {line : Str} : ∀ (ts toks : List Str) (st : LoadState),
    LoadInv names toks st →
    let r := ListFile.loadTokens o ty line ts st
    (∀ e ∈ st.names, e ∈ r.1.names) ∧
    (r.2 = .ok () → LoadInv names (toks ++ ts) r.1 ∧ (o = true → ∀ t ∈ ts, t = line) ∧ (ty = false → r.1.dups = st.dups)) := by
  intro ts
  induction ts with
  | nil => intro toks st h; exact ⟨fun _ h => h, fun _ => ⟨by simp only [List.append_nil]; exact h, by simp, fun _ => rfl⟩⟩
  | cons t ts ih =>
    intro toks st h
    have h1 := loadToken_inv (o := o) (ty := ty) (line := line) (token := t) h
    intro r
    have hr : r = ListFile.loadTokens o ty line (t :: ts) st := rfl
    unfold ListFile.loadTokens at hr
    revert h1 hr
    generalize ListFile.loadToken o ty line st t = x
    obtain ⟨st', x⟩ := x
    intro h1 hr
    simp only at h1 hr
    cases x with
    | throw e => rw [hr]; exact ⟨h1.1, fun h => by cases h⟩
    | ub => rw [hr]; exact ⟨h1.1, fun h => by cases h⟩
    | ok u =>
      simp only at hr
      obtain ⟨h2, h3, h4⟩ := h1.2 rfl
      have := ih (toks ++ [t]) st' h2
      rw [hr]
      refine ⟨fun e he => this.1 e (h1.1 e he), fun hok => ?_⟩
      obtain ⟨h5, h6, h7⟩ := this.2 hok
      refine ⟨by simpa using h5, fun ho x hx => ?_, fun hty => by rw [h7 hty, h4 hty]⟩
      rcases List.mem_cons.mp hx with rfl | hx
      · exact h3 ho
      · exact h6 ho x hx

theorem loadLines_inv {names : List Str} {o ty : Bool} : ∀ (ls : List Str) (toks : List Str) (st : LoadState),
    LoadInv names toks st →
    let r := ListFile.loadLines o ty ls st
    (∀ e ∈ st.names, e ∈ r.1.names) ∧
    (r.2 = .ok () → LoadInv names (toks ++ ls.flatMap (fields 0x20)) r.1 ∧
      (o = true → ∀ l ∈ ls, ∀ t ∈ fields 0x20 l, t = l) ∧ (ty = false → r.1.dups = st.dups)) := by
  intro ls
  induction ls with
  | nil => intro toks st h; exact ⟨fun _ h => h, fun _ => ⟨by simp only [List.append_nil, List.flatMap_nil]; exact h, by simp, fun _ => rfl⟩⟩
  | cons l ls ih =>
    intro toks st h
    have h1 := loadTokens_inv (o := o) (ty := ty) (line := l) (fields 0x20 l) toks st h
    intro r
    have hr : r = ListFile.loadLines o ty (l :: ls) st := rfl
    unfold ListFile.loadLines at hr
    revert h1 hr
    generalize ListFile.loadTokens o ty l (fields 0x20 l) st = x
    obtain ⟨st', x⟩ := x
    intro h1 hr
    simp only at h1 hr
    cases x with
    | throw e => rw [hr]; exact ⟨h1.1, fun h => by cases h⟩
    | ub => rw [hr]; exact ⟨h1.1, fun h => by cases h⟩
    | ok u =>
      simp only at hr
      obtain ⟨h2, h3, h4⟩ := h1.2 rfl
      have := ih _ st' h2
      rw [hr]
      refine ⟨fun e he => this.1 e (h1.1 e he), fun hok => ?_⟩
      obtain ⟨h5, h6, h7⟩ := this.2 hok
      refine ⟨by simpa using h5, fun ho x hx => ?_, fun hty => by rw [h7 hty, h4 hty]⟩
      rcases List.mem_cons.mp hx with rfl | hx
      · exact h3 ho
      · exact h6 ho x hx

theorem fileTokens_eq (text : Str) : fileTokens text = (fields 0x0a text).flatMap (fields 0x20) := by
  unfold fileTokens
  rw [← fields_eq]
  congr 1
  funext l
  rw [fields_eq]

theorem load_inv (o ty : Bool) (names : List Str) (text : Str) :
    let r := ListFile.load o ty names text
    (∀ e ∈ names, e ∈ r.1.names) ∧
    (r.2 = .ok () → LoadInv names (fileTokens text) r.1 ∧ r.1.dups = [] ∧
      (o = true → ∀ l ∈ dropEmptyLast (split 0x0a text), ∀ t ∈ dropEmptyLast (split 0x20 l), t = l)) := by
  have h0 : LoadInv names [] { names := names } :=
    ⟨rfl, List.nodup_nil, by simp, by simp, by simp, fun _ h => h, by simp, fun _ => rfl⟩
  have h1 := loadLines_inv (o := o) (ty := ty) (fields 0x0a text) [] _ h0
  intro r
  have hr : r = ListFile.load o ty names text := rfl
  unfold ListFile.load at hr
  revert h1 hr
  generalize ListFile.loadLines o ty (fields 0x0a text) { names := names } = x
  obtain ⟨st', x⟩ := x
  intro h1 hr
  simp only at h1 hr
  cases x with
  | throw e => rw [hr]; exact ⟨h1.1, fun h => by cases h⟩
  | ub => rw [hr]; exact ⟨h1.1, fun h => by cases h⟩
  | ok u =>
    simp only at hr
    rw [hr]
    refine ⟨h1.1, fun hok => ?_⟩
    obtain ⟨h2, h3, _⟩ := h1.2 rfl
    have hd : st'.dups = [] := by
      simp only at hok
      split at hok
      · assumption
      · cases hok
    rw [List.nil_append, ← fileTokens_eq] at h2
    simp only [fields_eq] at h3
    exact ⟨h2, hd, h3⟩

/-! ## C40: one position for each entry -/

/-- If loading succeeds the entries are the tokens of the file in order, each of them valid, and
pairwise distinct. -/
theorem C40_entries (o ty : Bool) (names : List Str) (text : Str) (st : LoadState)
    (h : ListFile.load o ty names text = (st, .ok ())) :
    st.list = fileTokens text ∧ st.list.Nodup ∧ st.list.length ≤ 65534 ∧
    (∀ e ∈ st.list, isValidMBUtf8 e true = some true) ∧
    (o = true → ∀ l ∈ dropEmptyLast (split 0x0a text), ∀ t ∈ dropEmptyLast (split 0x20 l), t = l) := by
  have := load_inv o ty names text
  rw [h] at this
  obtain ⟨h1, h2, h3⟩ := this.2 rfl
  exact ⟨h1.all h2, h1.nodup, h1.bound, h1.valid, h3⟩

/-- `exists` and `getIndex` agree with the list: positions start at 1, other strings have index 0. -/
theorem C40_index (o ty : Bool) (names : List Str) (text : Str) (st : LoadState)
    (h : ListFile.load o ty names text = (st, .ok ())) (s : Str) :
    (st.exists_ s = true ↔ s ∈ st.list) ∧
    (∀ i, st.list[i]? = some s → st.getIndex s = i + 1) ∧ (s ∉ st.list → st.getIndex s = 0) := by
  have := load_inv o ty names text
  rw [h] at this
  obtain ⟨h1, _, _⟩ := this.2 rfl
  simp only at h1
  have hnd : (st.map.map Prod.fst).Nodup := by rw [h1.map, positions_fst]; exact h1.nodup
  have hno : st.map.lookup s = none ↔ s ∉ st.list := by rw [lookup_none_iff, h1.map, positions_fst]
  refine ⟨?_, ?_, ?_⟩
  · unfold LoadState.exists_
    cases hl : st.map.lookup s with
    | none => simp [hno.mp hl]
    | some v => simp [Classical.not_not.mp fun hc => by rw [hno.mpr hc] at hl; cases hl]
  · intro i hi
    have hm : (s, i + 1) ∈ st.map := by rw [h1.map, positions_mem]; exact ⟨i, by omega, hi⟩
    unfold LoadState.getIndex
    rw [lookup_of_mem hnd hm]; rfl
  · intro hs
    unfold LoadState.getIndex
    rw [hno.mpr hs]; rfl

theorem split_flatten (d : UInt8) (s : Str) : (split d s).flatten = s.filter fun b => b ≠ d := by
  induction s with
  | nil => rfl
  | cons b s ih =>
    by_cases h : b = d
    · simp only [split, if_pos h, List.flatten_cons, ih, List.nil_append]
      simp [h]
    · simp only [split, if_neg h]
      cases hs : split d s with
      | nil => exact absurd hs (split_ne_nil d s)
      | cons f fs =>
        rw [hs] at ih
        simp only [List.flatten_cons] at ih ⊢
        rw [List.cons_append, ih, List.filter_cons_of_pos (by simpa using h)]

theorem dropEmptyLast_flatten (fs : List Str) : (dropEmptyLast fs).flatten = fs.flatten := by
  unfold dropEmptyLast
  split
  · rename_i h
    obtain ⟨l, rfl⟩ : ∃ l, fs = l ++ [[]] := by
      rcases List.eq_nil_or_concat fs with rfl | ⟨l, x, rfl⟩
      · simp at h
      · simp at h; exact ⟨l, by simp [h]⟩
    simp
  · rfl

/-- `toString` gives the text of the file without spaces and line ends. -/
theorem C40_text (o ty : Bool) (names : List Str) (text : Str) (st : LoadState)
    (h : ListFile.load o ty names text = (st, .ok ())) :
    st.toString = text.filter fun b => b ≠ 0x20 ∧ b ≠ 0x0a := by
  unfold LoadState.toString
  rw [(C40_entries o ty names text st h).1]
  have h1 : ∀ ls : List Str, (ls.flatMap fun l => dropEmptyLast (split 0x20 l)).flatten =
      ls.flatten.filter fun b => b ≠ 0x20 := by
    intro ls
    induction ls with
    | nil => rfl
    | cons l ls ih =>
      rw [List.flatMap_cons, List.flatten_append, ih, dropEmptyLast_flatten, split_flatten, List.flatten_cons,
        List.filter_append]
  unfold fileTokens
  rw [h1, dropEmptyLast_flatten, split_flatten, List.filter_filter]
  congr 1
  funext b
  simp

/-- Completeness: a file whose tokens are valid, distinct, new and not too many is loaded (for
`onePerLine` every line has to be one token). -/
theorem C40_complete (o ty : Bool) (names : List Str) (text : Str)
    (hnd : (fileTokens text).Nodup) (hlen : (fileTokens text).length ≤ 65534)
    (hv : ∀ e ∈ fileTokens text, isValidMBUtf8 e true = some true)
    (hnew : ∀ e ∈ fileTokens text, e ∉ names)
    (ho : o = true → ∀ l ∈ dropEmptyLast (split 0x0a text), ∀ t ∈ dropEmptyLast (split 0x20 l), t = l) :
    ∃ st, ListFile.load o ty names text = (st, .ok ()) ∧ st.list = fileTokens text := by
  -- a state in which exactly `done` has been read
  have tok : ∀ (line t : Str) (dn : List Str) (st : LoadState), LoadInv names dn st → st.dups = [] →
      (∀ e ∈ st.names, e ∈ names ∨ e ∈ dn) → (dn ++ [t]).Nodup → (dn ++ [t]).length ≤ 65534 →
      isValidMBUtf8 t true = some true → t ∉ names → (o = true → t = line) →
      ∃ st', ListFile.loadToken o ty line st t = (st', .ok ()) ∧ LoadInv names (dn ++ [t]) st' ∧ st'.dups = [] ∧
        ∀ e ∈ st'.names, e ∈ names ∨ e ∈ dn ++ [t] := by
    intro line t dn st hi hd hs hn hl hv ht ho
    have htd : t ∉ dn := by
      rw [List.nodup_append] at hn
      exact fun hc => hn.2.2 t hc t (by simp) rfl
    have hlist := hi.all hd
    have hlook : st.map.lookup t = none := by
      rw [lookup_none_iff, hi.map, positions_fst, hlist]; exact htd
    have hcn : st.names.contains t = false := by
      cases hc : st.names.contains t with
      | false => rfl
      | true =>
        rcases hs t (List.contains_iff_mem.mp hc) with h | h
        · exact absurd h ht
        · exact absurd h htd
    have hb : st.list.length ≠ maxEntries := by
      rw [hlist]
      simp only [List.length_append, List.length_singleton] at hl
      unfold maxEntries; omega
    have key := loadToken_inv (o := o) (ty := ty) (line := line) (token := t) hi
    have e : ListFile.loadToken o ty line st t =
        (⟨st.list ++ [t], st.map ++ [(t, (st.list.length + 1) % 65536)], t :: st.names, st.dups⟩, .ok ()) := by
      unfold ListFile.loadToken ListFile.validate
      rw [if_neg (fun h => h.2 (ho h.1)), hv]
      simp only [hlook, Option.isSome_none, Bool.false_eq_true, if_false, hcn, ListFile.addEntry]
      rw [if_neg hb]
    rw [e] at key
    refine ⟨_, e, (key.2 rfl).1, hd, ?_⟩
    intro x hx
    rcases List.mem_cons.mp hx with rfl | hx
    · exact .inr (by simp)
    · rcases hs x hx with h | h
      · exact .inl h
      · exact .inr (List.mem_append_left _ h)
  have toks : ∀ (line : Str) (ts dn : List Str) (st : LoadState), LoadInv names dn st → st.dups = [] →
      (∀ e ∈ st.names, e ∈ names ∨ e ∈ dn) → (dn ++ ts).Nodup → (dn ++ ts).length ≤ 65534 →
      (∀ t ∈ ts, isValidMBUtf8 t true = some true ∧ t ∉ names ∧ (o = true → t = line)) →
      ∃ st', ListFile.loadTokens o ty line ts st = (st', .ok ()) ∧ LoadInv names (dn ++ ts) st' ∧ st'.dups = [] ∧
        ∀ e ∈ st'.names, e ∈ names ∨ e ∈ dn ++ ts := by
    intro line ts
    induction ts with
    | nil => intro dn st hi hd hs _ _ _; exact ⟨st, rfl, by simpa using hi, hd, by simpa using hs⟩
    | cons t ts ih =>
      intro dn st hi hd hs hn hl ht
      have e : dn ++ t :: ts = (dn ++ [t]) ++ ts := by simp
      rw [e] at hn hl
      obtain ⟨h1, h2, h3⟩ := ht t List.mem_cons_self
      obtain ⟨st', k1, k2, k3, k4⟩ := tok line t dn st hi hd hs (List.nodup_append.mp hn).1
        (by rw [List.length_append] at hl; omega) h1 h2 h3
      obtain ⟨st'', k5, k6, k7, k8⟩ := ih (dn ++ [t]) st' k2 k3 k4 hn hl
        fun x hx => ht x (List.mem_cons_of_mem _ hx)
      refine ⟨st'', ?_, by rw [e]; exact k6, k7, by rw [e]; exact k8⟩
      unfold ListFile.loadTokens
      rw [k1]; exact k5
  have lines : ∀ (ls dn : List Str) (st : LoadState), LoadInv names dn st → st.dups = [] →
      (∀ e ∈ st.names, e ∈ names ∨ e ∈ dn) → (dn ++ ls.flatMap (fields 0x20)).Nodup →
      (dn ++ ls.flatMap (fields 0x20)).length ≤ 65534 →
      (∀ l ∈ ls, ∀ t ∈ fields 0x20 l, isValidMBUtf8 t true = some true ∧ t ∉ names ∧ (o = true → t = l)) →
      ∃ st', ListFile.loadLines o ty ls st = (st', .ok ()) ∧ LoadInv names (dn ++ ls.flatMap (fields 0x20)) st' ∧
        st'.dups = [] := by
    intro ls
    induction ls with
    | nil => intro dn st hi hd hs _ _ _; exact ⟨st, rfl, by simpa using hi, hd⟩
    | cons l ls ih =>
      intro dn st hi hd hs hn hl ht
      have e : dn ++ (l :: ls).flatMap (fields 0x20) = (dn ++ fields 0x20 l) ++ ls.flatMap (fields 0x20) := by simp
      rw [e] at hn hl
      obtain ⟨st', k1, k2, k3, k4⟩ := toks l (fields 0x20 l) dn st hi hd hs (List.nodup_append.mp hn).1
        (by rw [List.length_append] at hl; omega) (ht l List.mem_cons_self)
      obtain ⟨st'', k5, k6, k7⟩ := ih _ st' k2 k3 k4 hn hl fun x hx => ht x (List.mem_cons_of_mem _ hx)
      refine ⟨st'', ?_, by rw [e]; exact k6, k7⟩
      unfold ListFile.loadLines
      rw [k1]; exact k5
  have h0 : LoadInv names [] { names := names } :=
    ⟨rfl, List.nodup_nil, by simp, by simp, by simp, fun _ h => h, by simp, fun _ => rfl⟩
  have eq := fileTokens_eq text
  have hmem : ∀ l ∈ fields 0x0a text, ∀ t ∈ fields 0x20 l, t ∈ fileTokens text := by
    intro l hl t ht
    rw [eq]; exact List.mem_flatMap.mpr ⟨l, hl, ht⟩
  obtain ⟨st, k1, k2, k3⟩ := lines (fields 0x0a text) [] _ h0 rfl (fun e he => .inl he)
    (by rw [List.nil_append, ← eq]; exact hnd) (by rw [List.nil_append, ← eq]; exact hlen)
    fun l hl t ht => ⟨hv t (hmem l hl t ht), hnew t (hmem l hl t ht), fun h => ho h l (by rw [← fields_eq]; exact hl) t
      (by rw [← fields_eq]; exact ht)⟩
  refine ⟨st, ?_, ?_⟩
  · unfold ListFile.load
    rw [k1]; simp only [k3, if_true]
  · rw [k2.all k3, List.nil_append, ← eq]

/-! ## C41: typed lists are disjoint -/

/-- Load files one after the other with the same set of names; the results of failed attempts are
dropped, but the set keeps what they inserted. -/
def loadAll (ty : Bool) : List Str → List (Bool × Str) → List (List Str)
  | _, [] => []
  | names, (o, text) :: fs =>
    match ListFile.load o ty names text with
    | (st, .ok ()) => st.list :: loadAll ty st.names fs
    | (st, _) => loadAll ty st.names fs

theorem loadAll_fresh (ty : Bool) : ∀ (fs : List (Bool × Str)) (names : List Str),
    (∀ l ∈ loadAll ty names fs, ∀ e ∈ l, e ∉ names) ∧
    (loadAll ty names fs).Pairwise fun l m => ∀ e ∈ l, e ∉ m := by
  intro fs
  induction fs with
  | nil => intro names; exact ⟨by simp [loadAll], List.Pairwise.nil⟩
  | cons f fs ih =>
    intro names
    obtain ⟨o, text⟩ := f
    have h1 := load_inv o ty names text
    unfold loadAll
    revert h1
    generalize ListFile.load o ty names text = x
    obtain ⟨st, x⟩ := x
    intro h1
    simp only at h1
    obtain ⟨h2, h3⟩ := ih st.names
    cases x with
    | ok u =>
      simp only
      obtain ⟨h4, _, _⟩ := h1.2 rfl
      constructor
      · intro l hl e he
        rcases List.mem_cons.mp hl with rfl | hl
        · exact h4.fresh e he
        · exact fun hc => h2 l hl e he (h1.1 e hc)
      · refine List.pairwise_cons.mpr ⟨?_, h3⟩
        intro m hm e he hc
        exact h2 m hm e hc (h4.sub e he)
    | throw e => exact ⟨fun l hl e he hc => h2 l hl e he (h1.1 e hc), h3⟩
    | ub => exact ⟨fun l hl e he hc => h2 l hl e he (h1.1 e hc), h3⟩

/-- C41: whatever files are loaded with the same set, in any order and with failures in between, no
two of the loaded lists share an entry. -/
theorem C41_disjoint (ty : Bool) (names : List Str) (fs : List (Bool × Str)) :
    (loadAll ty names fs).Pairwise fun l m => ∀ e ∈ l, e ∉ m := (loadAll_fresh ty fs names).2

/-- No loaded list has an entry that was in the set before. -/
theorem C41_fresh (ty : Bool) (names : List Str) (fs : List (Bool × Str)) :
    ∀ l ∈ loadAll ty names fs, ∀ e ∈ l, e ∉ names := (loadAll_fresh ty fs names).1

example : (ListFile.load false true [] (u8!"一 二\n三\n")).1.list = [u8!"一", u8!"二", u8!"三"] := by decide
example : (ListFile.load false true [] (u8!"一 二\n三\n")).1.getIndex (u8!"三") = 3 := by decide
example : (ListFile.load false true [u8!"二"] (u8!"一 二\n三\n")).2 = .throw .domain := by decide
example : loadAll true [] [(false, u8!"一 二"), (false, u8!"三 二"), (false, u8!"四")] = [[u8!"一", u8!"二"], [u8!"四"]] := by
  decide

end KT
