import Verif.Spec.Id

/-! # C19: advisory identifiers -/

namespace Verif.Props

open Verif.Adv Verif.Spec

theorem parseU32_iff {s : Str} {n : Nat} : parseU32 s = some n ↔ IsU32Text s n := by
  have core : ∀ ds : Str, (if ds.isEmpty = true then (none : Option Nat)
      else if ds.all Char.isDigit = true then
        (if Nat.ofDigitChars 10 ds 0 < 2 ^ 32 then some (Nat.ofDigitChars 10 ds 0) else none) else none) = some n ↔
      ds ≠ [] ∧ (∀ c ∈ ds, c.isDigit = true) ∧ n = Nat.ofDigitChars 10 ds 0 ∧ n < 2 ^ 32 := by
    intro ds
    by_cases h1 : ds = []
    · simp [h1]
    · rw [if_neg (by simpa using h1)]
      by_cases h2 : ∀ c ∈ ds, c.isDigit = true
      · rw [if_pos (by simpa using h2)]
        by_cases h3 : Nat.ofDigitChars 10 ds 0 < 2 ^ 32
        · rw [if_pos h3]
          simp only [Option.some.injEq]
          exact ⟨fun h => ⟨h1, h2, h.symm, h ▸ h3⟩, fun h => h.2.2.1.symm⟩
        · rw [if_neg h3]
          simp only [reduceCtorEq, false_iff]
          rintro ⟨_, _, rfl, h4⟩; exact h3 h4
      · rw [if_neg (by simpa using h2)]
        simp only [reduceCtorEq, false_iff]
        exact fun h => h2 h.2.1
  have hs : parseU32 s = some n ↔ stripPlus s ≠ [] ∧ (∀ c ∈ stripPlus s, c.isDigit = true) ∧
      n = Nat.ofDigitChars 10 (stripPlus s) 0 ∧ n < 2 ^ 32 := core (stripPlus s)
  rw [hs, IsU32Text]
  constructor
  · intro h
    refine ⟨stripPlus s, ?_, h⟩
    cases s with
    | nil => exact Or.inl rfl
    | cons c r =>
      by_cases hc : c = '+'
      · subst hc; exact Or.inr rfl
      · left; simp [stripPlus, hc]
  · rintro ⟨ds, hds, h⟩
    have : stripPlus s = ds := by
      rcases hds with rfl | rfl
      · cases s with
        | nil => rfl
        | cons c r =>
          have : c ≠ '+' := by
            rintro rfl
            have := h.2.1 '+' (by simp)
            rw [plus_not_digit] at this; cases this
          simp [stripPlus, this]
      · rfl
    rw [this]; exact h

theorem isU32Text_no_dash {s : Str} {n : Nat} (h : IsU32Text s n) : '-' ∉ s := by
  obtain ⟨ds, hs, -, hd, -⟩ := h
  have : '-' ∉ ds := fun hm => by have := hd _ hm; rw [dash_not_digit] at this; cases this
  rcases hs with rfl | rfl
  · exact this
  · simpa using this

/-- For a string `P-...` where `P` has no dash, `parse_year` accepts exactly `P-YEAR-NUMBER`. -/
theorem parseYear_iff {p rest : Str} (hp : '-' ∉ p) {Y : Nat} :
    parseYear (p ++ '-' :: rest) = .ok Y ↔
      ∃ y m : Str, rest = y ++ '-' :: m ∧ IsU32Text y Y ∧ 2000 ≤ Y ∧ Y ≤ 2100 ∧ ∃ N, IsU32Text m N := by
  unfold parseYear
  rw [splitC_append hp]
  have hj := joinC_splitC '-' rest
  have hnm := not_mem_splitC '-' rest
  cases hs : splitC '-' rest with
  | nil => exact absurd hs (splitC_ne_nil _ _)
  | cons y t =>
    rw [hs] at hj hnm
    simp only
    constructor
    · intro h
      cases hy : parseU32 y with
      | none => rw [hy] at h; cases h
      | some n =>
        rw [hy] at h
        simp only at h
        split at h
        · rename_i hr
          cases t with
          | nil => cases h
          | cons num rest' =>
            simp only at h
            cases hn : parseU32 num with
            | none => rw [hn] at h; cases h
            | some N =>
              rw [hn] at h
              simp only at h
              split at h
              · rename_i he
                have : rest' = [] := by simpa using he
                subst this
                cases h
                refine ⟨y, num, ?_, parseU32_iff.mp hy, hr.1, hr.2, N, parseU32_iff.mp hn⟩
                simpa [joinC] using hj.symm
              · cases h
        · cases h
    · rintro ⟨y', m, hrest, hy', h1, h2, N, hm⟩
      have hsplit : splitC '-' rest = [y', m] := by
        rw [hrest, splitC_append (isU32Text_no_dash hy'), splitC_of_not_mem (isU32Text_no_dash hm)]
      rw [hs] at hsplit
      injection hsplit with e1 e2
      subst e1; subst e2
      rw [parseU32_iff.mpr hy']
      simp only
      rw [if_pos ⟨h1, h2⟩, parseU32_iff.mpr hm]
      rfl

theorem parseYear_no_panic {p rest : Str} (hp : '-' ∉ p) : parseYear (p ++ '-' :: rest) ≠ .panic := by
  unfold parseYear
  rw [splitC_append hp]
  cases hs : splitC '-' rest with
  | nil => exact absurd hs (splitC_ne_nil _ _)
  | cons y t =>
    simp only
    cases parseU32 y with
    | none => simp
    | some n =>
      simp only
      split
      · cases t with
        | nil => simp
        | cons num r =>
          simp only
          cases parseU32 num with
          | none => simp
          | some N => simp only; split <;> simp
      · simp

theorem detect_cases (s : Str) :
    (∃ rest, s = "RUSTSEC".toList ++ '-' :: rest ∧ IdKind.detect s = .rustSec) ∨
    (∃ rest, s = "CVE".toList ++ '-' :: rest ∧ IdKind.detect s = .cve) ∨
    (∃ rest, s = "TALOS".toList ++ '-' :: rest ∧ IdKind.detect s = .talos) ∨
    (NotYearId s ∧ (IdKind.detect s = .ghsa ↔ startsWith s "GHSA-" = true) ∧
      (IdKind.detect s = .ghsa ∨ IdKind.detect s = .other)) := by
  by_cases h1 : startsWith s "RUSTSEC-" = true
  · obtain ⟨t, ht⟩ := startsWith_iff.mp h1
    exact Or.inl ⟨t, ht, by simp [IdKind.detect, h1]⟩
  · by_cases h2 : startsWith s "CVE-" = true
    · obtain ⟨t, ht⟩ := startsWith_iff.mp h2
      exact Or.inr (Or.inl ⟨t, ht, by simp [IdKind.detect, h1, h2]⟩)
    · by_cases h3 : startsWith s "TALOS-" = true
      · obtain ⟨t, ht⟩ := startsWith_iff.mp h3
        exact Or.inr (Or.inr (Or.inl ⟨t, ht, by simp [IdKind.detect, h1, h2, h3]⟩))
      · refine Or.inr (Or.inr (Or.inr ⟨?_, ?_, ?_⟩))
        · rintro p k hp ⟨t, rfl⟩
          simp only [yearPrefixes, List.mem_cons, List.not_mem_nil, or_false, Prod.mk.injEq] at hp
          rcases hp with ⟨rfl, -⟩ | ⟨rfl, -⟩ | ⟨rfl, -⟩
          · exact h1 (startsWith_iff.mpr ⟨t, rfl⟩)
          · exact h2 (startsWith_iff.mpr ⟨t, rfl⟩)
          · exact h3 (startsWith_iff.mpr ⟨t, rfl⟩)
        · by_cases h4 : startsWith s "GHSA-" = true <;> simp [IdKind.detect, h1, h2, h3, h4]
        · by_cases h4 : startsWith s "GHSA-" = true <;> simp [IdKind.detect, h1, h2, h3, h4]

theorem yearId_of {P : String} {k : IdKind} (hp : (P.toList ++ ['-'], k) ∈ yearPrefixes) {rest y m : Str}
    {Y N : Nat} (h : rest = y ++ '-' :: m) (hy : IsU32Text y Y) (h1 : 2000 ≤ Y) (h2 : Y ≤ 2100)
    (hm : IsU32Text m N) : IsYearId (P.toList ++ '-' :: rest) k Y N :=
  ⟨_, hp, y, m, by simp [h], hy, h1, h2, hm⟩

/-- The shape of a parsed identifier. -/
theorem fromStr_cases (s : Str) :
    (s = placeholder ∧ Id.fromStr s = .ok Id.default) ∨
    (s ≠ placeholder ∧ ∃ k Y N, IsYearId s k Y N ∧ Id.fromStr s = .ok ⟨k, some Y, s⟩) ∨
    (s ≠ placeholder ∧ NotYearId s ∧ Id.fromStr s = .ok ⟨IdKind.detect s, none, s⟩ ∧
      (IdKind.detect s = .ghsa ∨ IdKind.detect s = .other)) ∨
    (s ≠ placeholder ∧ ¬ NotYearId s ∧ (¬ ∃ k Y N, IsYearId s k Y N) ∧ Id.fromStr s = .err) := by
  by_cases hph : s = placeholder
  · exact Or.inl ⟨hph, by simp [Id.fromStr, hph]⟩
  right
  have main : ∀ (P : String) (k : IdKind), '-' ∉ P.toList → (P.toList ++ ['-'], k) ∈ yearPrefixes →
      (∀ p' k', (p', k') ∈ yearPrefixes → ∀ t : Str, (P.toList ++ ['-'] ++ t) = p' ++ t → True) →
      (∀ rest, s = P.toList ++ '-' :: rest → IdKind.detect s = k → (k = .rustSec ∨ k = .cve ∨ k = .talos) →
        (∀ p' k' y' m', (p', k') ∈ yearPrefixes → s = p' ++ y' ++ '-' :: m' → p' = P.toList ++ ['-']) →
        (s ≠ placeholder ∧ ∃ k Y N, IsYearId s k Y N ∧ Id.fromStr s = .ok ⟨k, some Y, s⟩) ∨
        (s ≠ placeholder ∧ ¬ NotYearId s ∧ (¬ ∃ k Y N, IsYearId s k Y N) ∧ Id.fromStr s = .err)) := by
    intro P k hd hmem _ rest hs hk hkk hinj
    have hfs : Id.fromStr s = match parseYear s with
        | .ok y => .ok { kind := k, year := some y, string := s } | .err => .err | .panic => .panic := by
      unfold Id.fromStr
      rw [if_neg hph]
      simp only [hk]
      rcases hkk with rfl | rfl | rfl <;> rfl
    have hnot : ¬ NotYearId s := fun h => h _ _ hmem ⟨rest, by rw [hs]; simp⟩
    cases hpy : parseYear s with
    | ok Y =>
      left
      rw [hpy] at hfs
      rw [hs] at hpy
      obtain ⟨y, m, hr, hy, h1, h2, N, hm⟩ := (parseYear_iff hd).mp hpy
      exact ⟨hph, k, Y, N, hs ▸ yearId_of hmem hr hy h1 h2 hm, hfs⟩
    | err =>
      right
      rw [hpy] at hfs
      refine ⟨hph, hnot, ?_, hfs⟩
      rintro ⟨k', Y, N, p', hp', y, m, hsp, hy, h1, h2, hm⟩
      have := hinj p' k' y m hp' hsp
      subst this
      have hr : rest = y ++ '-' :: m := by
        rw [hs] at hsp
        simpa using hsp
      have := (parseYear_iff (p := P.toList) hd).mpr ⟨y, m, hr, hy, h1, h2, N, hm⟩
      rw [hs, this] at hpy
      cases hpy
    | panic => exact absurd (hs ▸ hpy) (parseYear_no_panic hd)
  have inj : ∀ (P : String) (k : IdKind) (rest : Str), (P.toList ++ ['-'], k) ∈ yearPrefixes →
      s = P.toList ++ '-' :: rest → ∀ p' k' y' m', (p', k') ∈ yearPrefixes → s = p' ++ y' ++ '-' :: m' →
      p' = P.toList ++ ['-'] := by
    intro P k rest hmem hs p' k' y' m' hp' hs'
    rw [hs] at hs'
    simp only [yearPrefixes, List.mem_cons, List.not_mem_nil, or_false, Prod.mk.injEq] at hmem hp'
    have hr : P.toList ++ ['-'] ++ rest = p' ++ (y' ++ '-' :: m') := by simpa using hs'
    rcases hmem with ⟨h, -⟩ | ⟨h, -⟩ | ⟨h, -⟩ <;> rcases hp' with ⟨rfl, -⟩ | ⟨rfl, -⟩ | ⟨rfl, -⟩ <;>
      rw [h] at hr ⊢ <;> simp at hr <;> rfl
  rcases detect_cases s with ⟨rest, hs, hk⟩ | ⟨rest, hs, hk⟩ | ⟨rest, hs, hk⟩ | ⟨hny, -, hgo⟩
  · rcases main "RUSTSEC" .rustSec (by decide) (by decide) (by simp) rest hs hk (by simp)
      (inj "RUSTSEC" .rustSec rest (by decide) hs) with h | h
    · exact Or.inl h
    · exact Or.inr (Or.inr h)
  · rcases main "CVE" .cve (by decide) (by decide) (by simp) rest hs hk (by simp)
      (inj "CVE" .cve rest (by decide) hs) with h | h
    · exact Or.inl h
    · exact Or.inr (Or.inr h)
  · rcases main "TALOS" .talos (by decide) (by decide) (by simp) rest hs hk (by simp)
      (inj "TALOS" .talos rest (by decide) hs) with h | h
    · exact Or.inl h
    · exact Or.inr (Or.inr h)
  · refine Or.inr (Or.inl ⟨hph, hny, ?_, hgo⟩)
    unfold Id.fromStr
    rw [if_neg hph]
    rcases hgo with h | h <;> simp [h]

/-- **C19 (acceptance).** `Id::from_str` accepts the placeholder, every string that does not begin with
`RUSTSEC-`, `CVE-` or `TALOS-`, and those that do exactly when they are `PREFIX-YEAR-NUMBER` with a year in
2000..=2100; it never panics. -/
theorem C19_accepts_iff (s : Str) :
    ((∃ i, Id.fromStr s = .ok i) ↔ s = placeholder ∨ NotYearId s ∨ ∃ k Y N, IsYearId s k Y N) ∧
    Id.fromStr s ≠ .panic := by
  rcases fromStr_cases s with ⟨h, e⟩ | ⟨h, k, Y, N, hy, e⟩ | ⟨h, hn, e, -⟩ | ⟨h, hn, hy, e⟩ <;> rw [e]
  · exact ⟨⟨fun _ => Or.inl h, fun _ => ⟨_, rfl⟩⟩, by simp⟩
  · exact ⟨⟨fun _ => Or.inr (Or.inr ⟨k, Y, N, hy⟩), fun _ => ⟨_, rfl⟩⟩, by simp⟩
  · exact ⟨⟨fun _ => Or.inr (Or.inl hn), fun _ => ⟨_, rfl⟩⟩, by simp⟩
  · refine ⟨⟨fun h' => ?_, fun h' => ?_⟩, by simp⟩
    · obtain ⟨i, hi⟩ := h'; cases hi
    · rcases h' with h' | h' | h'
      · exact absurd h' h
      · exact absurd h' hn
      · exact absurd h' hy

/-- **C19 (contents).** The text of a parsed ID is the input; for a `PREFIX-YEAR-NUMBER` identifier the kind,
year and numerical part are those written; other identifiers have no year and are GHSA exactly when they
begin with `GHSA-`. -/
theorem C19_parsed_contents (s : Str) (i : Id) (h : Id.fromStr s = .ok i) :
    i.display = s ∧
    (s ≠ placeholder → ∀ k Y N, IsYearId s k Y N → i.kind = k ∧ i.year = some Y ∧ i.numericalPart = some N) ∧
    (s = placeholder → i.kind = .rustSec ∧ i.year = none ∧ i.numericalPart = none ∧ i.url = none) ∧
    (NotYearId s → i.year = none ∧ (i.kind = .ghsa ∨ i.kind = .other) ∧
      (i.kind = .ghsa ↔ ("GHSA-".toList <+: s))) := by
  have uniq : ∀ k Y N, IsYearId s k Y N → s ≠ placeholder → Id.fromStr s = .ok ⟨k, some Y, s⟩ ∧
      ((splitC '-' s).getLast?.map parseU32 = some (some N)) := by
    rintro k Y N ⟨p, hp, y, m, hs, hy, h1, h2, hm⟩ hph
    have hd : ∀ P : String, '-' ∉ P.toList → p = P.toList ++ ['-'] → ∀ kk, IdKind.detect s = kk →
        (kk = .rustSec ∨ kk = .cve ∨ kk = .talos) → k = kk →
        Id.fromStr s = .ok ⟨k, some Y, s⟩ ∧
          ((splitC '-' s).getLast?.map parseU32 = some (some N)) := by
      intro P hP hpe kk hkk hor hk
      subst hk
      have hs' : s = P.toList ++ '-' :: (y ++ '-' :: m) := by rw [hs, hpe]; simp
      refine ⟨?_, ?_⟩
      · have := (parseYear_iff (p := P.toList) (rest := y ++ '-' :: m) hP).mpr ⟨y, m, rfl, hy, h1, h2, N, hm⟩
        rw [← hs'] at this
        unfold Id.fromStr
        rw [if_neg hph]
        simp only [hkk]
        rcases hor with rfl | rfl | rfl <;> simp [this]
      · rw [hs', splitC_append hP, splitC_append (isU32Text_no_dash hy), splitC_of_not_mem (isU32Text_no_dash hm)]
        simp [parseU32_iff.mpr hm]
    simp only [yearPrefixes, List.mem_cons, List.not_mem_nil, or_false, Prod.mk.injEq] at hp
    rcases hp with ⟨rfl, rfl⟩ | ⟨rfl, rfl⟩ | ⟨rfl, rfl⟩
    · refine hd "RUSTSEC" (by decide) rfl .rustSec ?_ (by simp) rfl
      have : startsWith s "RUSTSEC-" = true := startsWith_iff.mpr ⟨y ++ '-' :: m, by rw [hs]; simp⟩
      simp [IdKind.detect, this]
    · refine hd "CVE" (by decide) rfl .cve ?_ (by simp) rfl
      subst hs
      simp [IdKind.detect, startsWith]
    · refine hd "TALOS" (by decide) rfl .talos ?_ (by simp) rfl
      subst hs
      simp [IdKind.detect, startsWith]
  have numpart : ∀ (j : Id) (N : Nat), j.string = s → s ≠ placeholder →
      ((splitC '-' s).getLast?.map parseU32 = some (some N)) → j.numericalPart = some N := by
    intro j N hj hne hl
    unfold Id.numericalPart Id.isPlaceholder
    rw [hj, if_neg (by simpa using hne)]
    cases hg : (splitC '-' s).getLast? with
    | none => rw [hg] at hl; simp at hl
    | some l => rw [hg] at hl; simpa using hl
  rcases fromStr_cases s with ⟨hph, e⟩ | ⟨hph, k, Y, N, hy, e⟩ | ⟨hph, hn, e, hgo⟩ | ⟨hph, hn, hy, e⟩ <;>
    rw [e] at h
  · cases h
    refine ⟨hph.symm, fun h' => absurd hph h', fun _ => ⟨rfl, rfl, by decide, by decide⟩, fun hn => ?_⟩
    exact absurd (show "RUSTSEC-".toList <+: s by rw [hph]; decide) (hn _ .rustSec (by decide))
  · cases h
    refine ⟨rfl, fun _ k' Y' N' h' => ?_, fun h' => absurd h' hph, fun hn => ?_⟩
    · obtain ⟨e', hl⟩ := uniq k' Y' N' h' hph
      rw [e] at e'
      cases e'
      exact ⟨rfl, rfl, numpart _ N' rfl hph hl⟩
    · obtain ⟨p, hp, y, m, hs, -⟩ := hy
      exact absurd (⟨y ++ '-' :: m, by rw [hs]; simp⟩ : p <+: s) (hn p k hp)
  · cases h
    refine ⟨rfl, fun _ k' Y' N' h' => ?_, fun h' => absurd h' hph, fun _ => ⟨rfl, hgo, ?_⟩⟩
    · obtain ⟨p, hp, y, m, hs, -⟩ := h'
      exact absurd (⟨y ++ '-' :: m, by rw [hs]; simp⟩ : p <+: s) (hn p k' hp)
    · rcases detect_cases s with ⟨rest, hs, hk⟩ | ⟨rest, hs, hk⟩ | ⟨rest, hs, hk⟩ | ⟨-, hg, -⟩
      · rcases hgo with h | h <;> rw [hk] at h <;> cases h
      · rcases hgo with h | h <;> rw [hk] at h <;> cases h
      · rcases hgo with h | h <;> rw [hk] at h <;> cases h
      · rw [hg, startsWith, List.isPrefixOf_iff_prefix]
  · cases h

/-- Concrete cases: a year identifier, the boundaries of the year range, and the `+` quirk. -/
example : Id.fromStr "CVE-2017-1000168".toList = .ok ⟨.cve, some 2017, "CVE-2017-1000168".toList⟩ ∧
    IsYearId "CVE-2017-1000168".toList .cve 2017 1000168 ∧
    Id.fromStr "RUSTSEC-1999-0001".toList = .err ∧ Id.fromStr "RUSTSEC-2101-0001".toList = .err ∧
    Id.fromStr "RUSTSEC-2018-1-2".toList = .err ∧ Id.fromStr "CVE-2018".toList = .err ∧
    (∃ i, Id.fromStr "CVE-+2018-+7".toList = .ok i) := by
  refine ⟨by decide, ⟨"CVE-".toList, by decide, "2017".toList, "1000168".toList, by decide, parseU32_iff.mp (by decide), by decide,
    by decide, parseU32_iff.mp (by decide)⟩, by decide, by decide, by decide, by decide,
    ⟨⟨.cve, some 2018, "CVE-+2018-+7".toList⟩, by decide⟩⟩

end Verif.Props
