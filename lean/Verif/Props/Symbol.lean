import Verif.Model.Symbol
import Verif.Lemmas.Enum
/-!
# C19, C24: symbols and argument lists
-/
namespace KT

/-! ## C19: symbols intern names -/

/-- `Later t t'`: some history of constructions leads from `t` to `t'`. -/
inductive Later : SymTab → SymTab → Prop where
  | refl (t) : Later t t
  | step {t t'} (name : Str) : Later t t' → Later t (symCtor t' name).2

/-- The table of a program: reached from the empty one. -/
abbrev Reachable (t : SymTab) : Prop := Later SymTab.empty t

structure SymInv (t : SymTab) : Prop where
  cap : t.list.length ≤ symbolMax
  nodup : t.list.Nodup
  nonempty : [] ∉ t.list
  lookup : ∀ s i, t.map.lookup s = some i ↔ 0 < i ∧ t.list[i - 1]? = some s

theorem SymInv.lookup_none {t : SymTab} (h : SymInv t) (s : Str) :
    t.map.lookup s = none ↔ s ∉ t.list := by
  constructor
  · intro hn hm
    obtain ⟨i, hi⟩ := List.getElem?_of_mem hm
    have := (h.lookup s (i + 1)).mpr ⟨by omega, by simpa using hi⟩
    rw [hn] at this; simp at this
  · intro hm
    cases hq : t.map.lookup s with
    | none => rfl
    | some i => exact absurd (List.mem_of_getElem? ((h.lookup s i).mp hq).2) hm

theorem getId_cases (t : SymTab) (h : SymInv t) (name : Str) (_hne : name ≠ []) :
    (∃ i, t.map.lookup name = some i ∧ getId t name = (.ok i, t)) ∨
    (name ∉ t.list ∧ t.list.length < symbolMax ∧
      getId t name = (.ok (t.list.length + 1), ⟨(name, t.list.length + 1) :: t.map, t.list ++ [name]⟩)) ∨
    (name ∉ t.list ∧ t.list.length = symbolMax ∧ getId t name = (.throw .domain, t)) := by
  have hcap := h.cap
  cases hl : t.map.lookup name with
  | some i => left; exact ⟨i, rfl, by simp [getId, hl]⟩
  | none =>
    right
    have hm := (h.lookup_none name).mp hl
    by_cases hc : t.list.length < symbolMax
    · left
      have : (t.list.length + 1) % 65536 = t.list.length + 1 := by
        apply Nat.mod_eq_of_lt; simp only [symbolMax] at hc; omega
      exact ⟨hm, hc, by simp [getId, hc, hl, this]⟩
    · right; exact ⟨hm, by omega, by simp [getId, hc, hl]⟩

theorem symCtor_inv {t : SymTab} (h : SymInv t) (name : Str) :
    SymInv (symCtor t name).2 ∧ t.list <+: (symCtor t name).2.list := by
  unfold symCtor
  split
  · exact ⟨h, List.prefix_refl _⟩
  · rename_i hne
    have hne : name ≠ [] := by simpa using hne
    rcases getId_cases t h name hne with ⟨i, _, hg⟩ | ⟨hm, hc, hg⟩ | ⟨_, _, hg⟩
    · rw [hg]; exact ⟨h, List.prefix_refl _⟩
    · rw [hg]
      refine ⟨⟨?_, ?_, ?_, ?_⟩, List.prefix_append _ _⟩
      · simp; omega
      · rw [List.nodup_append]
        refine ⟨h.nodup, by simp, ?_⟩
        rintro a ha b hb rfl
        simp at hb; exact hm (hb ▸ ha)
      · simp only [List.mem_append, List.mem_singleton, not_or]
        exact ⟨h.nonempty, fun h => hne h.symm⟩
      · intro s i
        rw [List.lookup_cons]
        by_cases hs : s = name
        · subst hs
          simp only [beq_self_eq_true, Option.some.injEq]
          constructor
          · rintro rfl; simp
          · rintro ⟨h0, hi⟩
            rcases Nat.lt_trichotomy (i - 1) t.list.length with hlt | heq | hgt
            · rw [List.getElem?_append_left hlt] at hi
              exact absurd (List.mem_of_getElem? hi) hm
            · omega
            · rw [List.getElem?_eq_none (by simp; omega)] at hi; simp at hi
        · have : (s == name) = false := by simpa using hs
          simp only [this]
          rw [h.lookup s i]
          constructor
          · rintro ⟨h0, hi⟩
            refine ⟨h0, ?_⟩
            rw [List.getElem?_append_left (List.getElem?_eq_some_iff.mp hi).1]; exact hi
          · rintro ⟨h0, hi⟩
            refine ⟨h0, ?_⟩
            rcases Nat.lt_trichotomy (i - 1) t.list.length with hlt | heq | hgt
            · rwa [List.getElem?_append_left hlt] at hi
            · rw [heq] at hi; simp at hi; exact absurd hi.symm hs
            · rw [List.getElem?_eq_none (by simp; omega)] at hi; simp at hi
    · rw [hg]; exact ⟨h, List.prefix_refl _⟩

theorem Later.inv {t t' : SymTab} (h : Later t t') (hi : SymInv t) :
    SymInv t' ∧ t.list <+: t'.list := by
  induction h with
  | refl => exact ⟨hi, List.prefix_refl _⟩
  | step name _ ih =>
    have := symCtor_inv ih.1 name
    exact ⟨this.1, ih.2.trans this.2⟩

theorem reachable_inv {t : SymTab} (h : Reachable t) : SymInv t :=
  (h.inv ⟨by simp [SymTab.empty], by simp [SymTab.empty], by simp [SymTab.empty],
    by simp [SymTab.empty]⟩).1

theorem symCtor_name {t : SymTab} (h : SymInv t) {name : Str} {i : Nat} {t' : SymTab}
    (hc : symCtor t name = (.ok i, t')) : symName t' i = .ok name := by
  unfold symCtor at hc
  split at hc
  · rename_i he; simp at hc he; rw [← hc.1, he]; simp [symName]
  · rename_i he
    rcases getId_cases t h name (by simpa using he) with ⟨j, hj, hg⟩ | ⟨hm, hcap, hg⟩ | ⟨_, _, hg⟩
    · rw [hg] at hc; simp at hc
      obtain ⟨rfl, rfl⟩ := hc
      obtain ⟨h0, h1⟩ := (h.lookup name j).mp hj
      simp [symName, h1]; omega
    · rw [hg] at hc; simp at hc
      obtain ⟨rfl, rfl⟩ := hc
      simp [symName]
    · rw [hg] at hc; simp at hc

theorem symName_mono {t t' : SymTab} (h : t.list <+: t'.list) {i : Nat} {s : Str}
    (hn : symName t i = .ok s) : symName t' i = .ok s := by
  unfold symName at hn ⊢
  split
  · rename_i h0
    rw [if_pos h0] at hn
    split at hn
    · rename_i x hx
      obtain ⟨r, hr⟩ := h
      rw [← hr, List.getElem?_append_left (List.getElem?_eq_some_iff.mp hx).1, hx]
      exact hn
    · simp at hn
  · rename_i h0; rw [if_neg h0] at hn; exact hn

/-- A symbol keeps the name it was made from, for ever. -/
theorem C19_name_stable {t : SymTab} (h : Reachable t) {name : Str} {i : Nat} {t1 t2 : SymTab}
    (hc : symCtor t name = (.ok i, t1)) (hl : Later t1 t2) : symName t2 i = .ok name := by
  have h1 : SymInv t1 := by
    have := (symCtor_inv (reachable_inv h) name).1; rw [hc] at this; exact this
  exact symName_mono (hl.inv h1).2 (symCtor_name (reachable_inv h) hc)

/-- Two symbols made at any two points of a history are equal exactly when their names are. -/
theorem C19_equal_iff {t : SymTab} (h : Reachable t) {a b : Str} {i j : Nat} {t1 t2 t3 : SymTab}
    (ha : symCtor t a = (.ok i, t1)) (hl : Later t1 t2) (hb : symCtor t2 b = (.ok j, t3)) :
    i = j ↔ a = b := by
  have hr1 : Reachable t1 := by
    have := Later.step a h; rw [ha] at this; exact this
  have i1 := reachable_inv hr1
  have i2 := (hl.inv i1).1
  have i3 : SymInv t3 := by have := (symCtor_inv i2 b).1; rw [hb] at this; exact this
  have hp : t2.list <+: t3.list := by have := (symCtor_inv i2 b).2; rw [hb] at this; exact this
  have na : symName t3 i = .ok a := symName_mono hp (C19_name_stable h ha hl)
  have nb : symName t3 j = .ok b := symCtor_name i2 hb
  constructor
  · rintro rfl; rw [na] at nb; simpa using nb
  · rintro rfl
    unfold symName at na nb
    by_cases hi0 : i = 0
    · subst hi0
      simp at na; subst na
      by_cases hj0 : j = 0
      · exact hj0.symm
      · rw [if_pos hj0] at nb
        split at nb
        · rename_i x hx; simp at nb; subst nb
          exact absurd (List.mem_of_getElem? hx) i3.nonempty
        · simp at nb
    · rw [if_pos hi0] at na
      split at na
      · rename_i x hx
        simp at na; subst na
        by_cases hj0 : j = 0
        · subst hj0; simp at nb; subst nb
          exact absurd (List.mem_of_getElem? hx) i3.nonempty
        · rw [if_pos hj0] at nb
          split at nb
          · rename_i y hy
            simp at nb; subst nb
            have h1 := (i3.lookup y i).mpr ⟨by omega, hx⟩
            have h2 := (i3.lookup y j).mpr ⟨by omega, hy⟩
            rw [h1] at h2; simpa using h2
          · simp at nb
      · simp at na

/-- Id 0 belongs to the empty name only. -/
theorem C19_zero {t : SymTab} (h : Reachable t) {name : Str} {i : Nat} {t1 : SymTab}
    (hc : symCtor t name = (.ok i, t1)) : i = 0 ↔ name = [] := by
  have h0 : symCtor t [] = (.ok 0, t) := by simp [symCtor]
  rw [eq_comm, @C19_equal_iff t h [] name 0 i t t t1 h0 (.refl t) hc, eq_comm]

/-- At most 65534 names are stored, all different; a name exists exactly after it was used in a
successful construction (it is in the list). -/
theorem C19_capacity {t : SymTab} (h : Reachable t) :
    symSize t ≤ 65534 ∧ t.list.Nodup ∧ ∀ name, symExists t name = true ↔ name ∈ t.list := by
  have hi := reachable_inv h
  refine ⟨hi.cap, hi.nodup, ?_⟩
  intro name
  simp only [symExists, Bool.and_eq_true, Bool.not_eq_true']
  constructor
  · rintro ⟨_, h2⟩
    cases hq : t.map.lookup name with
    | none => rw [hq] at h2; simp at h2
    | some x => exact List.mem_of_getElem? ((hi.lookup name x).mp hq).2
  · intro hm
    refine ⟨?_, ?_⟩
    · cases name with
      | nil => exact absurd hm hi.nonempty
      | cons => rfl
    · cases hq : t.map.lookup name with
      | none => exact absurd hm ((hi.lookup_none name).mp hq)
      | some x => rfl

/-- Below capacity every name is accepted; at capacity the empty name and known names still resolve
while a new name fails with DomainError and changes nothing. -/
theorem C19_outcomes {t : SymTab} (h : Reachable t) (name : Str) :
    (name = [] ∨ symExists t name = true → ∃ i, symCtor t name = (.ok i, t)) ∧
    (name ≠ [] → symExists t name = false → symSize t < 65534 →
      ∃ t', symCtor t name = (.ok (symSize t + 1), t') ∧ t'.list = t.list ++ [name]) ∧
    (name ≠ [] → symExists t name = false → symSize t = 65534 →
      symCtor t name = (.throw .domain, t)) := by
  have hi := reachable_inv h
  have hex := (C19_capacity h).2.2 name
  refine ⟨?_, ?_, ?_⟩
  · rintro (rfl | he)
    · exact ⟨0, by simp [symCtor]⟩
    · by_cases hn : name = []
      · subst hn; exact ⟨0, by simp [symCtor]⟩
      · have hm := hex.mp he
        have : name.isEmpty = false := by simpa using hn
        simp only [symCtor, this, Bool.false_eq_true, if_false]
        rcases getId_cases t hi name hn with ⟨i, _, hg⟩ | ⟨hx, _⟩ | ⟨hx, _⟩
        · exact ⟨i, hg⟩
        · exact absurd hm hx
        · exact absurd hm hx
  · intro hn he hc
    have hm : name ∉ t.list := by rw [← hex, he]; simp
    have : name.isEmpty = false := by simpa using hn
    simp only [symCtor, this, Bool.false_eq_true, if_false]
    rcases getId_cases t hi name hn with ⟨i, hl, _⟩ | ⟨_, _, hg⟩ | ⟨_, hx, _⟩
    · rw [(hi.lookup_none name).mpr hm] at hl; simp at hl
    · exact ⟨_, hg, rfl⟩
    · simp only [symSize, symbolMax] at hc hx; omega
  · intro hn he hc
    have hm : name ∉ t.list := by rw [← hex, he]; simp
    have : name.isEmpty = false := by simpa using hn
    simp only [symCtor, this, Bool.false_eq_true, if_false]
    rcases getId_cases t hi name hn with ⟨i, hl, _⟩ | ⟨_, hx, _⟩ | ⟨_, _, hg⟩
    · rw [(hi.lookup_none name).mpr hm] at hl; simp at hl
    · simp only [symSize, symbolMax] at hc hx; omega
    · exact hg

example : ∃ t1 t2 t3, symCtor .empty (u8!"CJK") = (.ok 1, t1) ∧ symCtor t1 (u8!"Kana") = (.ok 2, t2) ∧
    symCtor t2 (u8!"CJK") = (.ok 1, t3) ∧ symName t3 2 = .ok (u8!"Kana") :=
  ⟨_, _, _, rfl, rfl, rfl, by decide⟩

/-! ## C24: argument lists are bounds checked -/

/-- The constructor from `int` accepts exactly `0 ≤ argc ≤ 65535` with `argv` present exactly when
`argc > 0`; the rest throws. -/
theorem C24_ctor (argc : Int) (argv : Option (List Str)) :
    ((∃ a, mkArgsInt argc argv = .ok a) ↔
      0 ≤ argc ∧ argc ≤ 65535 ∧ (argv.isSome = true ↔ 0 < argc)) ∧
    (∀ a, mkArgsInt argc argv = .ok a → (a.argc : Int) = argc ∧ a.argv = argv) ∧
    mkArgsInt argc argv ≠ .ub := by
  unfold mkArgsInt checkInt
  by_cases h1 : argc < 0
  · simp [h1]; intro; omega
  · by_cases h2 : argc > 65535
    · simp [h1, h2]; intro; omega
    · simp only [h1, h2, if_false, Res.bind_ok, mkArgs]
      cases argv with
      | none =>
        by_cases h3 : argc.toNat = 0
        · simp [h3]; omega
        · simp [h3]; omega
      | some l =>
        by_cases h3 : argc.toNat = 0
        · simp [h3]; omega
        · simp [h3]; omega

/-- With `argv` as the operating system (or a caller) provides it, i.e., at least `argc` entries,
`args[i]` is `argv[i]` for `i < argc` and throws RangeError for every other index of the parameter
type; a wider integer is reduced modulo 65536 by the call and still never reads outside of `argv`. -/
theorem C24_get (argc : Int) (argv : Option (List Str)) (a : Args)
    (hc : mkArgsInt argc argv = .ok a) (hl : ∀ l, argv = some l → argc ≤ l.length) (i : Int) :
    (0 ≤ i → i < argc → ∃ l s, argv = some l ∧ l[i.toNat]? = some s ∧ a.get i = .ok s) ∧
    (argc ≤ i → i < 65536 → a.get i = .throw .range) ∧
    a.get i ≠ .ub := by
  obtain ⟨h1, h2, _⟩ := C24_ctor argc argv
  obtain ⟨h0, hmax, hsome⟩ := h1.mp ⟨a, hc⟩
  obtain ⟨ha, hv⟩ := h2 a hc
  have key : ∀ k : Nat, k < a.argc → ∃ l s, argv = some l ∧ l[k]? = some s := by
    intro k hk
    have : argv.isSome = true := hsome.mpr (by omega)
    obtain ⟨l, hl'⟩ := Option.isSome_iff_exists.mp this
    have := hl l hl'
    exact ⟨l, l[k]'(by omega), hl', List.getElem?_eq_getElem _⟩
  refine ⟨?_, ?_, ?_⟩
  · intro hi0 hi
    have hm : (i % 65536).toNat = i.toNat := by omega
    obtain ⟨l, s, hl', hs⟩ := key i.toNat (by omega)
    refine ⟨l, s, hl', hs, ?_⟩
    unfold Args.get
    simp only [hm, hv, hl', hs]
    rw [if_neg (by omega)]
  · intro hi hi2
    unfold Args.get
    simp only
    rw [if_pos (by omega)]
  · unfold Args.get
    simp only
    split
    · simp
    · rename_i hk
      obtain ⟨l, s, hl', hs⟩ := key (i % 65536).toNat (by omega)
      simp [hv, hl', hs]

example : ∃ a, mkArgsInt 2 (some [u8!"prog", u8!"-h"]) = .ok a ∧ a.get 1 = .ok (u8!"-h") ∧
    a.get 2 = .throw .range := ⟨_, rfl, by decide, by decide⟩
example : mkArgsInt (-1) none = .throw .range ∧ mkArgsInt 65536 (some []) = .throw .range ∧
    mkArgsInt 0 (some []) = .throw .domain := by decide

end KT
