import Verif.Model.PlatformPrint
import Verif.Model.PlatformReadme
import Verif.Spec.PlatformPrint
import Verif.Props.PlatformGen

/-!
# C77: the printed tables
-/

namespace Verif.Props

open Verif.PlatGen Verif.Plat Verif.Spec

theorem fill_column (w : Nat) (s : Str) : IsColumn w s (fill w s) := by
  refine ⟨w - s.length, rfl, ?_, ?_⟩
  · intro h
    simp [fill]
    omega
  · intro h; omega

theorem entryLine_row (p : Platform) : IsRow p (entryLine p) :=
  ⟨_, _, _, _, fill_column 38 _, fill_column 11 _, fill_column 10 _, fill_column 10 _, by
    unfold entryLine
    simp only [List.append_assoc, List.cons_append, List.nil_append]
    rfl⟩

theorem toUsize_number (t : Tier) : t.toUsize = tierNumber t := by cases t <;> rfl

theorem headerLines_eq (t : Tier) : headerLines t = tierHead t := by
  unfold headerLines tierHead titleLine
  rw [toUsize_number]

/-! ### Sorting by tier -/

/-- The platforms of a tier, in the order of the table. -/
def ofTier (ps : List Platform) (t : Tier) : List Platform := ps.filter fun p => decide (p.tier = t)

theorem sortByTier_eq (ps : List Platform) : sortByTier ps = ofTier ps .one ++ ofTier ps .two ++ ofTier ps .three := by
  unfold sortByTier
  induction ps with
  | nil => rfl
  | cons p ps ih =>
    rw [List.insertionSort_cons, ih]
    have hle : ∀ (t : Tier) (l : List Platform), (∀ q ∈ l, q.tier.toUsize < p.tier.toUsize) → ∀ r,
        List.orderedInsert (fun a b : Platform => a.tier.toUsize ≤ b.tier.toUsize) p (l ++ r) =
          l ++ List.orderedInsert (fun a b : Platform => a.tier.toUsize ≤ b.tier.toUsize) p r := by
      intro t l hl r
      induction l with
      | nil => rfl
      | cons q l ihl =>
        rw [List.cons_append, List.orderedInsert_cons, if_neg (by have := hl q List.mem_cons_self; omega),
          ihl fun x hx => hl x (List.mem_cons_of_mem _ hx)]
        rfl
    have hge : ∀ r : List Platform, (∀ q ∈ r, p.tier.toUsize ≤ q.tier.toUsize) →
        List.orderedInsert (fun a b : Platform => a.tier.toUsize ≤ b.tier.toUsize) p r = p :: r := by
      intro r hr
      cases r with
      | nil => rfl
      | cons q r => rw [List.orderedInsert_cons, if_pos (hr q List.mem_cons_self)]
    have hmem : ∀ t q, q ∈ ofTier ps t → q.tier = t := by
      intro t q hq
      have := (List.mem_filter.mp hq).2
      simpa using this
    have hcons : ∀ t, ofTier (p :: ps) t = if p.tier = t then p :: ofTier ps t else ofTier ps t := by
      intro t
      unfold ofTier
      by_cases h : p.tier = t
      · rw [List.filter_cons_of_pos (by simpa using h), if_pos h]
      · rw [List.filter_cons_of_neg (by simpa using h), if_neg h]
    rw [hcons, hcons, hcons]
    cases hp : p.tier with
    | one =>
      rw [if_pos rfl, if_neg (by decide), if_neg (by decide), hge]
      · rfl
      · intro q _
        rw [hp]
        cases q.tier <;> decide
    | two =>
      rw [if_neg (by decide), if_pos rfl, if_neg (by decide), List.append_assoc, hle .one, hge]
      · simp
      · intro q hq
        rw [hp]
        rcases List.mem_append.mp hq with h | h <;> rw [hmem _ _ h] <;> decide
      · intro q hq
        rw [hp, hmem _ _ hq]; decide
    | three =>
      rw [if_neg (by decide), if_neg (by decide), if_pos rfl, hle .one, hge]
      · intro q hq
        rw [hp, hmem _ _ hq]
      · intro q hq
        rw [hp]
        rcases List.mem_append.mp hq with h | h <;> rw [hmem _ _ h] <;> decide

/-! ### The loop -/

theorem tableLines_same (t : Tier) (l r : List Platform) (hl : ∀ q ∈ l, q.tier = t) :
    tableLines (some t) (l ++ r) = l.map entryLine ++ tableLines (some t) r := by
  induction l with
  | nil => rfl
  | cons q l ih =>
    have hq := hl q List.mem_cons_self
    rw [List.cons_append, tableLines, hq, if_neg (by simp), List.nil_append, List.map_cons, List.cons_append,
      ih fun x hx => hl x (List.mem_cons_of_mem _ hx)]

theorem tableLines_new (current : Option Tier) (t : Tier) (l r : List Platform) (hl : ∀ q ∈ l, q.tier = t) (hne : l ≠ [])
    (hc : current ≠ some t) :
    tableLines current (l ++ r) =
      (if current.isSome then [[]] else []) ++ (headerLines t ++ l.map entryLine) ++ tableLines (some t) r := by
  cases l with
  | nil => exact absurd rfl hne
  | cons q l =>
    have hq := hl q List.mem_cons_self
    rw [List.cons_append, tableLines, hq, if_pos hc, tableLines_same t l r fun x hx => hl x (List.mem_cons_of_mem _ hx)]
    simp

/-- The section of a tier. -/
def tierSection (ps : List Platform) (t : Tier) : Option (List Str) :=
  if ofTier ps t = [] then none else some (headerLines t ++ (ofTier ps t).map entryLine)

theorem tableLines_sorted (ps : List Platform) :
    tableLines none (sortByTier ps) = joinSections ([Tier.one, .two, .three].filterMap (tierSection ps)) := by
  rw [sortByTier_eq, List.append_assoc]
  have hmem : ∀ t, ∀ q ∈ ofTier ps t, q.tier = t := by
    intro t q hq
    have := (List.mem_filter.mp hq).2
    simpa using this
  have h3 : ∀ c, c ≠ some Tier.three → tableLines c (ofTier ps .three) = if ofTier ps .three = [] then [] else
      (if c.isSome then [[]] else []) ++ (headerLines .three ++ (ofTier ps .three).map entryLine) := by
    intro c hc
    split
    · next h => rw [h]; cases c <;> rfl
    · next h =>
      have := tableLines_new c .three (ofTier ps .three) [] (hmem _) h hc
      rw [List.append_nil] at this
      rw [this]
      simp [tableLines]
  have h2 : ∀ c, c ≠ some Tier.two → c ≠ some Tier.three → tableLines c (ofTier ps .two ++ ofTier ps .three) =
      if ofTier ps .two = [] then tableLines c (ofTier ps .three) else
      (if c.isSome then [[]] else []) ++ (headerLines .two ++ (ofTier ps .two).map entryLine) ++
        tableLines (some .two) (ofTier ps .three) := by
    intro c hc _
    split
    · next h => rw [h, List.nil_append]
    · next h => exact tableLines_new c .two _ _ (hmem _) h hc
  have h1 : tableLines none (ofTier ps .one ++ (ofTier ps .two ++ ofTier ps .three)) =
      if ofTier ps .one = [] then tableLines none (ofTier ps .two ++ ofTier ps .three) else
      (headerLines .one ++ (ofTier ps .one).map entryLine) ++
        tableLines (some .one) (ofTier ps .two ++ ofTier ps .three) := by
    split
    · next h => rw [h, List.nil_append]
    · next h =>
      rw [tableLines_new none .one _ _ (hmem _) h (by decide)]
      rfl
  rw [h1, h2 none (by decide) (by decide), h2 (some .one) (by decide) (by decide), h3 none (by decide),
    h3 (some .one) (by decide), h3 (some .two) (by decide)]
  unfold tierSection
  by_cases e1 : ofTier ps .one = [] <;> by_cases e2 : ofTier ps .two = [] <;> by_cases e3 : ofTier ps .three = [] <;>
    simp only [e1, e2, e3, List.filterMap_cons, List.filterMap_nil, if_true, if_false, joinSections, Option.isSome_none,
      Option.isSome_some, List.nil_append, List.append_nil, List.append_assoc, List.cons_append, Bool.false_eq_true]

theorem linkName_eq (t : Str) : linkName t = t.map fun c => if c = '-' then '_' else c.toUpper := by
  unfold linkName upper
  rw [List.map_map]
  refine List.map_congr_left fun c _ => ?_
  simp only [Function.comp]
  by_cases h : c = '-'
  · rw [h]; decide
  · rw [if_neg h, if_neg]
    intro hu
    by_cases hl : c.isLower = true
    · exact isLower_cases (P := fun c => ¬ c.toUpper = '-') (by decide +kernel) c hl hu
    · exact h (by rwa [toUpper_of_not_lower c hl] at hu)

/-- **C77, the table.**  For every list of platforms the program prints, for each tier that has platforms and in the order of
the tiers, its header and a row for each of its platforms in the order of the list; sections are separated by empty lines, and
after another empty line there is a link for every platform.  So every platform has one row and one link. -/
theorem C77_table (ps : List Platform) :
    ∃ (row link : Platform → Str), (∀ p, IsRow p (row p)) ∧
      (∀ p, link p = '[' :: p.triple ++ "]: https://docs.rs/platforms/latest/platforms/platform/constant.".toList ++
        (p.triple.map fun c => if c = '-' then '_' else c.toUpper) ++ ".html".toList) ∧
      printLines ps = joinSections ([Tier.one, .two, .three].filterMap fun t =>
          if (ps.filter fun p => decide (p.tier = t)) = [] then none
          else some (tierHead t ++ (ps.filter fun p => decide (p.tier = t)).map row)) ++ [] :: ps.map link := by
  refine ⟨entryLine, linkLine, entryLine_row, ?_, ?_⟩
  · intro p
    unfold linkLine
    rw [linkName_eq]
    rfl
  unfold printLines
  rw [tableLines_sorted]
  congr 2

theorem max?_eq_some (l : List Nat) (n : Nat) : l.max? = some n ↔ n ∈ l ∧ ∀ x ∈ l, x ≤ n :=
  List.max?_eq_some_iff

/-- **C77, when it prints.**  The program prints exactly if the longest triple has 36 characters and the longest operating
system 10, and panics otherwise, also for an empty table. -/
theorem C77_prints (ps : List Platform) :
    (printTable ps = .ok (printLines ps) ↔
      ((∃ p ∈ ps, p.triple.length = 36) ∧ ∀ p ∈ ps, p.triple.length ≤ 36) ∧
      ((∃ p ∈ ps, p.os.asStr.length = 10) ∧ ∀ p ∈ ps, p.os.asStr.length ≤ 10)) ∧
    (printTable ps = .ok (printLines ps) ∨ printTable ps = .panic) := by
  have h1 : (ps.map fun p => p.triple.length).max? = some 36 ↔
      (∃ p ∈ ps, p.triple.length = 36) ∧ ∀ p ∈ ps, p.triple.length ≤ 36 := by
    rw [max?_eq_some, List.mem_map, List.forall_mem_map]
  have h2 : (ps.map fun p => p.os.asStr.length).max? = some 10 ↔
      (∃ p ∈ ps, p.os.asStr.length = 10) ∧ ∀ p ∈ ps, p.os.asStr.length ≤ 10 := by
    rw [max?_eq_some, List.mem_map, List.forall_mem_map]
  rw [← h1, ← h2]
  unfold printTable
  by_cases e1 : (ps.map fun p => p.triple.length).max? = some 36
  · by_cases e2 : (ps.map fun p => p.os.asStr.length).max? = some 10
    · rw [if_neg (not_not.mpr e1), if_neg (not_not.mpr e2)]
      exact ⟨⟨fun _ => ⟨e1, e2⟩, fun _ => rfl⟩, Or.inl rfl⟩
    · rw [if_neg (not_not.mpr e1), if_pos e2]
      exact ⟨⟨nofun, fun h => absurd h.2 e2⟩, Or.inr rfl⟩
  · rw [if_pos e1]
    exact ⟨⟨nofun, fun h => absurd h.1 e1⟩, Or.inr rfl⟩

theorem isColumn_length {w : Nat} {s c : Str} (h : IsColumn w s c) : c.length = max w s.length := by
  obtain ⟨n, hc, h1, h2⟩ := h
  by_cases hw : s.length ≤ w
  · rw [h1 hw]; omega
  · have := h2 (by omega)
    rw [hc, this]
    simp
    omega

/-- **C77, alignment.**  A row is as long as the lines of the header exactly if nothing in it is longer than its column. -/
theorem C77_aligned (p : Platform) (t : Tier) (row : Str) (h : IsRow p row) :
    (∀ line ∈ (tierHead t).drop 2, row.length = line.length) ↔
      p.triple.length ≤ 36 ∧ p.arch.asStr.length ≤ 11 ∧ p.os.asStr.length ≤ 10 ∧ p.env.asStr.length ≤ 10 := by
  obtain ⟨c₁, c₂, c₃, c₄, h1, h2, h3, h4, hr⟩ := h
  have l1 := isColumn_length h1
  have l2 := isColumn_length h2
  have l3 := isColumn_length h3
  have l4 := isColumn_length h4
  have hlen : row.length = c₁.length + c₂.length + c₃.length + c₄.length + 13 := by
    rw [hr]
    simp only [List.length_append, List.length_cons, List.length_nil]
    omega
  have hhead : ∀ line ∈ (tierHead t).drop 2, line.length = 82 := by
    intro line hl
    have hl' : line ∈ ["| target triple                          | target_arch | target_os  | target_env |".toList,
      "|----------------------------------------|-------------|------------|------------|".toList] := hl
    clear hl
    revert line
    decide +kernel
  have hex : ∃ line, line ∈ (tierHead t).drop 2 := ⟨_, List.mem_cons_self⟩
  simp only [List.length_append, List.length_cons, List.length_nil] at l1
  constructor
  · intro hall
    obtain ⟨line, hl⟩ := hex
    have := hall line hl
    rw [hhead line hl] at this
    omega
  · intro hle line hl
    rw [hhead line hl]
    omega

/-- **C77, links.**  The link of a platform names the constant the generator gives it (C76) exactly if there is no `.` in the
triple. -/
theorem C77_link (triple : Str) : linkName triple = constName triple ↔ '.' ∉ triple := by
  have h : constName triple = (linkName triple).map fun c => if c = '.' then '_' else c := rfl
  have hdot : '.' ∈ linkName triple ↔ '.' ∈ triple := by
    unfold linkName upper
    rw [List.map_map, List.mem_map]
    constructor
    · rintro ⟨c, hc, he⟩
      by_cases hl : c.isLower = true
      · exfalso
        revert he
        exact isLower_cases (P := fun c => ¬ (((fun c => if c = '-' then '_' else c) ∘ Char.toUpper) c = '.')) (by decide +kernel) c hl
      · simp only [Function.comp, toUpper_of_not_lower c hl] at he
        split at he
        · cases he
        · rwa [← he]
    · intro hc
      exact ⟨'.', hc, by decide⟩
  rw [h, ← hdot]
  constructor
  · intro he hd
    have : '.' ∈ (linkName triple).map fun c => if c = '.' then '_' else c := he ▸ hd
    obtain ⟨c, _, hc⟩ := List.mem_map.mp this
    split at hc
    · cases hc
    · next hn => exact hn hc
  · intro hd
    conv_lhs => rw [← List.map_id (linkName triple)]
    refine List.map_congr_left fun c hc => ?_
    rw [if_neg fun (he : c = '.') => hd (he ▸ hc)]
    rfl

attribute [local irreducible] readmeLines Platform.all

theorem linkMiddle : "]: https://docs.rs/platforms/latest/platforms/platform/constant.".toList =
    [']', ':', ' ', 'h', 't', 't', 'p', 's', ':', '/', '/', 'd', 'o', 'c', 's', '.', 'r', 's', '/', 'p', 'l', 'a', 't', 'f', 'o', 'r', 'm', 's', '/', 'l', 'a', 't', 'e', 's', 't', '/', 'p', 'l', 'a', 't', 'f', 'o', 'r', 'm', 's', '/', 'p', 'l', 'a', 't', 'f', 'o', 'r', 'm', '/', 'c', 'o', 'n', 's', 't', 'a', 'n', 't', '.'] := by
  decide +kernel

theorem linkLine_eq (p : Platform) : linkLine p = '[' :: p.triple ++
    [']', ':', ' ', 'h', 't', 't', 'p', 's', ':', '/', '/', 'd', 'o', 'c', 's', '.', 'r', 's', '/', 'p', 'l', 'a', 't', 'f', 'o', 'r', 'm', 's', '/', 'l', 'a', 't', 'e', 's', 't', '/', 'p', 'l', 'a', 't', 'f', 'o', 'r', 'm', 's', '/', 'p', 'l', 'a', 't', 'f', 'o', 'r', 'm', '/', 'c', 'o', 'n', 's', 't', 'a', 'n', 't', '.'] ++
    linkName p.triple ++ ['.', 'h', 't', 'm', 'l'] := by
  unfold linkLine
  rw [linkMiddle]
  rfl

theorem linksReadme : (Platform.all.map fun p => '[' :: p.triple ++
    [']', ':', ' ', 'h', 't', 't', 'p', 's', ':', '/', '/', 'd', 'o', 'c', 's', '.', 'r', 's', '/', 'p', 'l', 'a', 't', 'f', 'o', 'r', 'm', 's', '/', 'l', 'a', 't', 'e', 's', 't', '/', 'p', 'l', 'a', 't', 'f', 'o', 'r', 'm', 's', '/', 'p', 'l', 'a', 't', 'f', 'o', 'r', 'm', '/', 'c', 'o', 'n', 's', 't', 'a', 'n', 't', '.'] ++
    linkName p.triple ++ ['.', 'h', 't', 'm', 'l']) = readmeLines.drop 346 := by
  decide +kernel

theorem tableReadme : tableLines none (sortByTier Platform.all) ++ [[]] = readmeLines.take 346 := by decide +kernel

/-- **C77, the README.**  The tables and links in the committed README are exactly what the program prints for the committed
platforms, and it does print. -/
theorem C77_readme : printLines Platform.all = readmeLines ∧ (printTable Platform.all).isOk = true := by
  refine ⟨?_, by decide +kernel⟩
  unfold printLines
  rw [funext linkLine_eq, linksReadme]
  conv_rhs => rw [← List.take_append_drop 346 readmeLines, ← tableReadme, List.append_assoc]
  rfl

/-- The lengths of the entries of the table. -/
theorem lengths_committed : ∀ p ∈ Platform.all, p.triple.length ≤ 36 ∧ p.arch.asStr.length ≤ 11 ∧ p.os.asStr.length ≤ 10 ∧
    (p.env.asStr.length ≤ 10 ↔ p.env ≠ .nto71Iosock) := by decide +kernel

/-- **C77, violation.**  In the printed table of the committed platforms the rows that are not aligned with the header are
those with the environment `nto71_iosock`; there are some. -/
theorem C77_misaligned :
    (∀ p ∈ Platform.all, ∀ t row, IsRow p row →
      ((∀ line ∈ (tierHead t).drop 2, row.length = line.length) ↔ p.env ≠ .nto71Iosock)) ∧
    ∃ p ∈ Platform.all, p.env = .nto71Iosock := by
  refine ⟨?_, by decide +kernel⟩
  intro p hp t row hr
  rw [C77_aligned p t row hr]
  obtain ⟨h1, h2, h3, h4⟩ := lengths_committed p hp
  rw [h4]
  tauto

/-- **C77, violation.**  The README links to constants that do not exist for the platforms with a `.` in their triple; there
are some. -/
theorem C77_dead_links :
    (∀ p ∈ Platform.all, (linkName p.triple = constName p.triple ↔ '.' ∉ p.triple)) ∧
    ∃ p ∈ Platform.all, '.' ∈ p.triple ∧ linkName p.triple ≠ constName p.triple := by
  refine ⟨fun p _ => C77_link p.triple, ?_⟩
  have : ∃ p ∈ Platform.all, '.' ∈ p.triple := by decide +kernel
  obtain ⟨p, hp, hd⟩ := this
  exact ⟨p, hp, hd, fun he => (C77_link p.triple).mp he hd⟩

end Verif.Props
